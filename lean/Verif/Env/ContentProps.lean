import Verif.Env.Build

/-!
# C148: the encrypted content of `EnvelopedData`
-/

namespace Verif.Env

open Verif.CA Verif.Prot

variable {S K C : Type}

/-! ## Specification -/

/-- AES in CBC mode (RFC 9481, section 5) and the length of its key in bytes. -/
def CbcAlg (o : Oid) (n : Nat) : Prop :=
  (o = [2, 16, 840, 1, 101, 3, 4, 1, 2] ∧ n = 16) ∨ (o = [2, 16, 840, 1, 101, 3, 4, 1, 22] ∧ n = 24) ∨
    (o = [2, 16, 840, 1, 101, 3, 4, 1, 42] ∧ n = 32)

/-- `b` is `d` padded to blocks of 16 bytes as in RFC 5652, section 6.3. -/
def Padded (d b : Bytes) : Prop :=
  16 ∣ b.length ∧ ∃ n : Nat, 1 ≤ n ∧ n ≤ 16 ∧ b = d ++ List.replicate n (UInt8.ofNat n)

/-- The content `d` of `x` under the content encryption key: the type is `id-data` (`raw`) or `id-signedData`, the
algorithm is AES-CBC for the length of the key, and the parameters are an IV of 16 bytes. -/
def Content (env : KEnv S K C) (x : EncInfo) (cek : Bytes) (raw : Bool) (d : Bytes) : Prop :=
  x.ctype = (if raw then [1, 2, 840, 113549, 1, 7, 1] else [1, 2, 840, 113549, 1, 7, 2]) ∧
  CbcAlg x.alg.oid cek.length ∧
  ∃ par iv c b, x.alg.par = some par ∧ env.decIv par = some (iv, []) ∧ iv.length = 16 ∧ x.content = some c ∧
    env.cbcDec cek iv c = .ok b ∧ Padded d b

/-! ## Lemmas -/

theorem lenOf_cbc (o : Oid) (n : Nat) : lenOf cbcLens o = some n ↔ CbcAlg o n := by
  unfold CbcAlg
  simp only [cbcLens, lenOf]
  by_cases h1 : ([2, 16, 840, 1, 101, 3, 4, 1, 2] : Oid) = o
  · subst h1
    simp
    grind
  · rw [if_neg h1]
    by_cases h2 : ([2, 16, 840, 1, 101, 3, 4, 1, 22] : Oid) = o
    · subst h2
      simp
      grind
    · rw [if_neg h2]
      by_cases h3 : ([2, 16, 840, 1, 101, 3, 4, 1, 42] : Oid) = o
      · subst h3
        simp
        grind
      · rw [if_neg h3]
        grind

theorem padded_unpad {d b : Bytes} (h : Padded d b) : unpad b = .ok d := by
  obtain ⟨h16, n, h1, h2, rfl⟩ := h
  have hn : (UInt8.ofNat n).toNat = n := by
    rw [UInt8.toNat_ofNat']
    omega
  obtain ⟨m, rfl⟩ : ∃ m, n = m + 1 := ⟨n - 1, by omega⟩
  have hl : (d ++ List.replicate (m + 1) (UInt8.ofNat (m + 1))).getLast? = some (UInt8.ofNat (m + 1)) := by
    rw [List.getLast?_append, List.getLast?_replicate]
    simp
  have hlen : (d ++ List.replicate (m + 1) (UInt8.ofNat (m + 1))).length - (m + 1) = d.length := by
    simp
  unfold unpad
  rw [hl]
  dsimp only
  rw [hn, hlen, List.drop_left, List.take_left]
  rw [if_pos ⟨by omega, by omega, h2, rfl⟩]

theorem unpad_padded {d b : Bytes} (h : unpad b = .ok d) : Padded d b := by
  unfold unpad at h
  cases hb : b.getLast? with
  | none => rw [hb] at h; cases h
  | some n =>
    rw [hb] at h
    dsimp only at h
    split at h
    · rename_i hc
      obtain ⟨h1, h2, h3, h4⟩ := hc
      cases h
      refine ⟨Nat.dvd_of_mod_eq_zero h1, n.toNat, h2, h3, ?_⟩
      rw [UInt8.ofNat_toNat, ← h4, List.take_append_drop]
    · cases h

theorem unpad_iff (d b : Bytes) : unpad b = .ok d ↔ Padded d b := ⟨unpad_padded, padded_unpad⟩

theorem pad_padded (d : Bytes) : Padded d (pad d) := by
  refine ⟨?_, 16 - d.length % 16, by omega, by omega, rfl⟩
  unfold pad
  rw [List.length_append, List.length_replicate]
  omega

/-! ## C148 -/

/-- C148: the content is returned exactly when the type, the algorithm, the length of the key, the IV and the padding are
right, and it is the plaintext. -/
theorem C148_iff (env : KEnv S K C) (x : EncInfo) (cek : Bytes) (raw : Bool) (d : Bytes) :
    openInfo env x cek raw = .ok d ↔ Content env x cek raw d := by
  unfold openInfo Content
  have ht : (if raw then dataOid else signedDataOid : Oid) =
      (if raw then [1, 2, 840, 113549, 1, 7, 1] else [1, 2, 840, 113549, 1, 7, 2]) := rfl
  rw [← ht]
  by_cases h1 : x.ctype = (if raw then dataOid else signedDataOid : Oid)
  · rw [if_neg (not_not_intro h1)]
    cases h2 : lenOf cbcLens x.alg.oid with
    | none =>
      refine ⟨nofun, fun h => ?_⟩
      rw [(lenOf_cbc _ _).mpr h.2.1] at h2
      cases h2
    | some len =>
      dsimp only
      cases h3 : x.alg.par with
      | none => exact ⟨nofun, fun ⟨_, _, par, _, _, _, h, _⟩ => nomatch h⟩
      | some par =>
        dsimp only
        unfold openContent
        cases h4 : env.decIv par with
        | none =>
          refine ⟨nofun, fun ⟨_, _, par', _, _, _, h, h', _⟩ => ?_⟩
          cases h
          rw [h4] at h'
          cases h'
        | some y =>
          obtain ⟨iv, rest⟩ := y
          dsimp only
          by_cases h5 : rest = []
          · subst h5
            rw [if_neg (by simp)]
            cases h6 : x.content with
            | none => exact ⟨nofun, fun ⟨_, _, _, _, _, _, _, _, _, h, _⟩ => nomatch h⟩
            | some c =>
              dsimp only
              by_cases h7 : cek.length = len
              · rw [if_neg (not_not_intro h7)]
                unfold aesDec
                by_cases h8 : iv.length = 16
                · rw [if_neg (not_not_intro h8)]
                  cases h9 : env.cbcDec cek iv c with
                  | error e =>
                    refine ⟨nofun, fun ⟨_, _, par', iv', c', b, hp, hi, _, hc, hd, _⟩ => ?_⟩
                    cases hp
                    cases hc
                    rw [h4] at hi
                    cases hi
                    rw [h9] at hd
                    cases hd
                  | ok b =>
                    dsimp only
                    rw [unpad_iff]
                    constructor
                    · intro h
                      exact ⟨h1, (lenOf_cbc _ _).mp (by rw [h2, h7]), par, iv, c, b, rfl, h4, h8, rfl, h9, h⟩
                    · rintro ⟨_, _, par', iv', c', b', hp, hi, _, hc, hd, hpad⟩
                      cases hp
                      cases hc
                      rw [h4] at hi
                      cases hi
                      rw [h9] at hd
                      cases hd
                      exact hpad
                · rw [if_pos h8]
                  refine ⟨nofun, fun ⟨_, _, par', iv', c', b, hp, hi, h', _⟩ => ?_⟩
                  cases hp
                  rw [h4] at hi
                  cases hi
                  exact absurd h' h8
              · rw [if_pos h7]
                refine ⟨nofun, fun ⟨_, ha, _⟩ => ?_⟩
                rw [(lenOf_cbc _ _).mpr ha] at h2
                cases h2
                exact absurd rfl h7
          · rw [if_pos h5]
            refine ⟨nofun, fun ⟨_, _, par', iv', _, _, hp, hi, _⟩ => ?_⟩
            cases hp
            rw [h4] at hi
            cases hi
            exact absurd rfl h5
  · rw [if_pos h1]
    exact ⟨nofun, fun h => absurd h.1 h1⟩

/-- C148: the content is determined by the structure and the key. -/
theorem C148_unique (env : KEnv S K C) {x : EncInfo} {cek : Bytes} {r r' : Bool} {d d' : Bytes}
    (h : openInfo env x cek r = .ok d) (h' : openInfo env x cek r' = .ok d') : d = d' := by
  obtain ⟨_, _, par, iv, c, b, hp, hi, _, hc, hd, hpad⟩ := (C148_iff env x cek r d).mp h
  obtain ⟨_, _, par', iv', c', b', hp', hi', _, hc', hd', hpad'⟩ := (C148_iff env x cek r' d').mp h'
  rw [hp] at hp'
  cases hp'
  rw [hi] at hi'
  cases hi'
  rw [hc] at hc'
  cases hc'
  rw [hd] at hd'
  cases hd'
  have := padded_unpad hpad
  rw [padded_unpad hpad'] at this
  cases this
  rfl

/-- C148: what the code builds under a key of 16, 24 or 32 bytes is read back: `DER` of the IV and the block cipher have to
be inverted. -/
theorem C148_roundtrip (env : KEnv S K C) {cek data iv : Bytes} {oid : Option Oid} {x : EncInfo} {raw : Bool}
    (hk : cek.length = 16 ∨ cek.length = 24 ∨ cek.length = 32) (hiv : env.decIv (env.encIv iv) = some (iv, []))
    (hc : ∀ c, env.cbcEnc cek iv (pad data) = .ok c → env.cbcDec cek iv c = .ok (pad data))
    (ht : oid.getD [1, 2, 840, 113549, 1, 7, 2] =
      (if raw then [1, 2, 840, 113549, 1, 7, 1] else [1, 2, 840, 113549, 1, 7, 2]))
    (h : buildInfo env cek data iv oid = .ok x) : openInfo env x cek raw = .ok data := by
  rw [C148_iff]
  unfold buildInfo aesEnc at h
  by_cases h16 : iv.length = 16
  · rw [if_neg (not_not_intro h16)] at h
    cases hb : env.cbcEnc cek iv (pad data) with
    | error e => rw [hb] at h; cases h
    | ok c =>
      rw [hb] at h
      cases h
      refine ⟨ht, ?_, env.encIv iv, iv, c, pad data, rfl, hiv, h16, rfl, hc c hb, pad_padded data⟩
      unfold CbcAlg cbcOid
      rcases hk with hk | hk | hk <;> rw [hk] <;> simp
  · rw [if_pos h16] at h
    cases h

/-- C148: with a key of another length nothing can be read. -/
theorem C148_key_length (env : KEnv S K C) {x : EncInfo} {cek : Bytes} {raw : Bool} {d : Bytes}
    (h : openInfo env x cek raw = .ok d) : cek.length = 16 ∨ cek.length = 24 ∨ cek.length = 32 := by
  obtain ⟨_, h, _⟩ := (C148_iff env x cek raw d).mp h
  unfold CbcAlg at h
  omega

end Verif.Env
