import Verif.Ra.ConfirmProps

/-!
# Confirmations: a hash which is given, another algorithm, and a wrong hash (C185)
-/

namespace Verif.Ra

open Verif.CA hiding Bytes Msg

variable {C : Type}

/-- **C185.** A hash which is given, unless it is empty, is the one of the status, whatever the certificate and the
algorithm. -/
theorem C185_given_hash (cl : ClientEnv C) (a : StatusArgs C) (h : List UInt8) (s : CertStatus) (hh : a.certHash = some h)
    (hne : h ≠ []) (hb : a.badCertId = false) (hs : prepareStatus cl a = .ok s) :
    s.certHash = some h ∧ s.certReqId = a.certReqId := by
  unfold prepareStatus at hs
  cases h1 : statusAlg cl a with
  | error e => rw [h1] at hs; cases hs
  | ok p =>
    obtain ⟨al, f⟩ := p
    rw [h1] at hs; dsimp only at hs
    have h2 : statusHash cl a al = .ok (some h) := by
      unfold statusHash
      split
      · rw [if_neg (by rw [hh]; simp [hne]), hh]
      · rw [hh]
    rw [h2] at hs; dsimp only at hs
    rw [hb] at hs
    cases hs
    exact ⟨rfl, rfl⟩

/-- **C185.** Without a hash, or with an empty one, the status for a certificate and an algorithm has the hash of the
certificate under the algorithm, and names the algorithm. -/
theorem C185_computed_hash (cl : ClientEnv C) (a : StatusArgs C) (c : C) (n f : String) (h : List UInt8)
    (hh : a.certHash = none ∨ a.certHash = some []) (hc : a.cert = some c) (hn : a.hashAlg = some n) (hb : a.badCertId = false)
    (hf : cl.hashOid n = .ok f) (hx : cl.hash n c = .ok h) :
    ∃ st, prepareStatus cl a = .ok ⟨a.certReqId, some h, st, some f⟩ := by
  refine ⟨statusOf a, ?_⟩
  unfold prepareStatus statusAlg
  rw [hn]; dsimp only
  rw [hf]; dsimp only
  unfold statusHash
  rw [hc]; dsimp only
  rw [if_pos hh, hx]
  dsimp only [Except.map]
  rw [hb]
  rfl

/-- **C185.** A test with another algorithm for the hash never uses the one of the signature of the certificate: it uses
SHA-256 or SHA-512, and names it in the status. -/
theorem C185_different (cl : ClientEnv C) (a : StatusArgs C) (c : C) (s : CertStatus) (hc : a.cert = some c)
    (hn : a.hashAlg = none) (hd : a.different = true) (hs : prepareStatus cl a = .ok s) :
    ∃ o n f, cl.sigHash c = .ok o ∧ o ≠ some n ∧ (n = "sha256" ∨ n = "sha512" ∧ o = some "sha256") ∧
      cl.hashOid n = .ok f ∧ s.hashAlg = some f := by
  unfold prepareStatus at hs
  cases h1 : statusAlg cl a with
  | error e => rw [h1] at hs; cases hs
  | ok p =>
    obtain ⟨al, f⟩ := p
    rw [h1] at hs; dsimp only at hs
    have hsf : s.hashAlg = f := by
      split at hs
      · cases hs
      · cases hs
      · split at hs
        · cases hs
        · cases hs; rfl
    unfold statusAlg at h1
    rw [hn] at h1; dsimp only at h1
    rw [hc] at h1; dsimp only at h1
    cases h2 : cl.sigHash c with
    | error e => rw [h2] at h1; cases h1
    | ok o =>
      rw [h2] at h1; dsimp only at h1
      rw [if_pos hd] at h1
      by_cases ho : o = some "sha256"
      · rw [if_pos ho] at h1
        cases h3 : cl.hashOid "sha512" with
        | error e => rw [h3] at h1; cases h1
        | ok g =>
          rw [h3] at h1
          cases h1
          exact ⟨o, "sha512", g, rfl, by rw [ho]; decide, .inr ⟨rfl, ho⟩, h3, hsf⟩
      · rw [if_neg ho] at h1
        cases h3 : cl.hashOid "sha256" with
        | error e => rw [h3] at h1; cases h1
        | ok g =>
          rw [h3] at h1
          cases h1
          exact ⟨o, "sha256", g, rfl, ho, .inl rfl, h3, hsf⟩

/-- **C185.** The same for the function that gives the hash alone. -/
theorem C185_different_hash (cl : ClientEnv C) (c : C) (alg : Option String) (h : List UInt8)
    (hs : certHashOf cl c alg true = .ok h) :
    ∃ o n, cl.sigHash c = .ok o ∧ o ≠ some n ∧ (n = "sha256" ∨ n = "sha512" ∧ o = some "sha256") ∧ cl.hash n c = .ok h := by
  unfold certHashOf at hs
  rw [if_pos rfl] at hs
  cases h2 : cl.sigHash c with
  | error e => rw [h2] at hs; cases hs
  | ok o =>
    rw [h2] at hs; dsimp only at hs
    by_cases ho : o = some "sha256"
    · rw [if_pos ho] at hs
      exact ⟨o, "sha512", rfl, by rw [ho]; decide, .inr ⟨rfl, ho⟩, hs⟩
    · rw [if_neg ho] at hs
      exact ⟨o, "sha256", rfl, ho, .inl rfl, hs⟩

/-- **C185.** A wrong hash differs from the right one in the first byte alone, which becomes 0, or 1 if it was 0. -/
theorem C185_bad_id_form (cl : ClientEnv C) (a : StatusArgs C) (s t : CertStatus)
    (hg : prepareStatus cl { a with badCertId := false } = .ok s)
    (hb : prepareStatus cl { a with badCertId := true } = .ok t) :
    ∃ b b' bs, s.certHash = some (b :: bs) ∧ t.certHash = some (b' :: bs) ∧ (b' = 0 ∧ b ≠ 0 ∨ b' = 1 ∧ b = 0) := by
  have h1 : statusAlg cl { a with badCertId := true } = statusAlg cl { a with badCertId := false } := rfl
  have h2 : ∀ x, statusHash cl { a with badCertId := true } x = statusHash cl { a with badCertId := false } x := fun _ => rfl
  unfold prepareStatus at hg hb
  rw [h1] at hb
  cases h3 : statusAlg cl { a with badCertId := false } with
  | error e => rw [h3] at hg; cases hg
  | ok p =>
    obtain ⟨al, f⟩ := p
    rw [h3] at hg hb; dsimp only at hg hb
    rw [h2] at hb
    cases h4 : statusHash cl { a with badCertId := false } al with
    | error e => rw [h4] at hg; cases hg
    | ok o =>
      rw [h4] at hg hb
      cases o with
      | none => cases hg
      | some h =>
        dsimp only at hg hb
        rw [if_neg (by simp)] at hg
        rw [if_pos rfl] at hb
        cases hg
        cases h with
        | nil => cases hb
        | cons b bs =>
          dsimp only [spoil] at hb
          cases hb
          by_cases hz : b = 0
          · exact ⟨b, 1, bs, rfl, by simp [hz], .inr ⟨rfl, hz⟩⟩
          · exact ⟨b, 0, bs, rfl, by simp [hz], .inl ⟨rfl, hz⟩⟩

private theorem single_given (cl : ClientEnv C) (args : ConfArgs C) (id : Option Int) (x : Option C) (v : Int) (c : C)
    (s : CertStatus) (h : List UInt8) (hh : args.certHash = some h) (hne : h ≠ [])
    (hs : singleStatus cl args id x v c = .ok s) : s.certHash = some h := by
  unfold singleStatus at hs
  split at hs
  · cases hs
  · rw [if_neg (by rw [hh]; simp [hne]), hh] at hs
    dsimp only [Option.getD_some] at hs
    exact (C185_given_hash cl _ h s rfl hne rfl hs).1

private theorem loop_given (cl : ClientEnv C) (args : ConfArgs C) (h : List UInt8) (hh : args.certHash = some h) (hne : h ≠ [])
    (n : Nat) (ch : List C) (v : Int) : ∀ (es : List (RespEntry C)) (g : Option Int) (l : List CertStatus),
      confLoop cl args n ch v g es = .ok l → ∀ s ∈ l, s.certHash = some h
  | [], _, l, hl => by
    unfold confLoop at hl
    cases hl
    intro s hs; cases hs
  | e :: es, g, l, hl => by
    unfold confLoop at hl
    dsimp only at hl
    split at hl
    · cases hl
    · split at hl
      · cases hl
      · split at hl
        · cases hl
        · rename_i s0 hs0
          split at hl
          · cases hl
          · rename_i ss hss
            cases hl
            intro s hs
            rcases List.mem_cons.1 hs with rfl | hs
            · exact single_given cl args _ _ _ _ _ h hh hne hs0
            · exact loop_given cl args h hh hne n ch v es _ ss hss s hs

/-- **C185.** In the answer to a response, a hash which is given is the one of every entry, also if the certificates of the
response differ. -/
theorem C185_given_hash_all (cl : ClientEnv C) (args : ConfArgs C) (r : CaResponse C) (h : List UInt8) (l : List CertStatus)
    (hh : args.certHash = some h) (hne : h ≠ []) (hst : args.certStatus = none) (hl : confEntries cl args r = .ok l) :
    ∀ s ∈ l, s.certHash = some h := by
  unfold confEntries at hl
  dsimp only at hl
  split at hl
  · cases hl
  · split at hl
    · split at hl
      · cases hl
      · rename_i c _ _ ca _
        cases hs : singleStatus cl args args.certReqId ca (args.pvno.getD r.pvno) c with
        | error e => rw [hs] at hl; cases hl
        | ok s =>
          rw [hs] at hl
          cases hl
          intro s' hs'
          rw [List.mem_singleton.1 hs']
          exact single_given cl args _ _ _ _ _ h hh hne hs
    · rw [hst] at hl
      dsimp only at hl
      split at hl
      · cases hl
      · exact loop_given cl args h hh hne _ _ _ _ _ _ hl

/-- **C185.** A confirmation can be built from a hash alone, and from nothing at all it cannot: an empty hash is none. -/
theorem C185_hash_alone (cl : ClientEnv C) (alg : Option String) (h : List UInt8) (st : StatusVal)
    (si : Option (StatusVal × Bool)) (id : Int) :
    (h ≠ [] → ∃ s, confDirect cl none alg (some h) none st si id = .ok s ∧ s.certHash = some h ∧ s.certReqId = id ∧
      s.hashAlg = none) ∧
    confDirect cl none alg (some []) none st si id = .error .valueError ∧
    confDirect cl none alg none none st si id = .error .valueError := by
  refine ⟨fun hne => ?_, ?_, ?_⟩
  · unfold confDirect
    rw [if_neg (by simp [hne])]
    exact ⟨_, rfl, rfl, rfl, rfl⟩
  · unfold confDirect
    rw [if_pos (by simp)]
  · unfold confDirect
    rw [if_pos (by simp)]

/-- Certificates are texts, signed with SHA-256. -/
def exClient : ClientEnv String where
  sigHash _ := .ok (some "sha256")
  digestAlg _ _ := .ok "sha256"
  hash n c := .ok [UInt8.ofNat n.length, UInt8.ofNat c.length]
  hashOid n := .ok ("oid " ++ n)

example : prepareStatus exClient { cert := some "cert", different := true } =
    .ok ⟨0, some [6, 4], none, some "oid sha512"⟩ := by
  rfl

example : prepareStatus exClient { cert := some "cert", certHash := some [0, 7], badCertId := true, certReqId := 3 } =
    .ok ⟨3, some [1, 7], none, none⟩ := by
  rfl

example : confEntries exClient { certHash := some [5] } ⟨"ip", 2, [⟨0, .ok "a"⟩, ⟨1, .ok "b"⟩], .ok ["a", "CA"], fun _ => .error .valueError⟩ =
    .ok [⟨0, some [5], none, none⟩, ⟨0, some [5], none, none⟩] := by
  rfl

end Verif.Ra
