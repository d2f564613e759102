import Mathlib.Data.List.Nodup
import Batteries.Data.List.Perm
import Verif.Hybrid.SunReqProps

/-!
# Requests for Sun hybrid certificates: what is refused before anything is built (C254)
-/

namespace Verif.Hybrid.SunReq

open Verif.CA (Bytes PyErr)

variable {C Csr Q K E A : Type}

/-- **C254.** A PKCS#10 request of another version than 0 is refused as a bad template, whatever the rest of it and the
configuration of the handler. -/
theorem C254_version (env : Env C Csr Q K E) (h : Handler C E A) (csr : Csr) (conf : Bool) (prot : Prot) (serial : Int)
    (url : String) (bad : Bool) :
    (env.version csr ≠ 0 → processRequest env h ⟨.p10cr csr, conf, prot⟩ serial url bad = .error .badCertTemplate) ∧
    (∀ o, processRequest env h ⟨.p10cr csr, conf, prot⟩ serial url bad = .ok o → env.version csr = 0) := by
  have h1 : env.version csr ≠ 0 →
      processRequest env h ⟨.p10cr csr, conf, prot⟩ serial url bad = .error .badCertTemplate := by
    intro hv
    unfold processRequest checkBody
    simp [hv]
  refine ⟨h1, fun o ho => ?_⟩
  by_contra hv
  rw [h1 hv] at ho
  cases ho

/-- **C254.** A message that is no request for certificates is refused. -/
theorem C254_other_body (env : Env C Csr Q K E) (h : Handler C E A) (name : String) (conf : Bool) (prot : Prot)
    (serial : Int) (url : String) (bad : Bool) :
    processRequest env h ⟨.other name, conf, prot⟩ serial url bad = .error .exception := rfl

/-- **C254.** A message of requests is refused as a bad request unless the identifiers of its requests are the numbers from 0
to the number of requests minus one, each once, in any order. -/
theorem C254_identifiers (env : Env C Csr Q K E) (h : Handler C E A) (name : String) (l : List Q) (conf : Bool) (prot : Prot)
    (serial : Int) (url : String) (bad : Bool)
    (hn : l = [] ∨ ¬ (l.map env.reqId).Perm ((List.range l.length).map (fun (n : Nat) => (n : Int)))) :
    processRequest env h ⟨.reqs name l, conf, prot⟩ serial url bad = .error .badRequest := by
  have key : checkIds (l.map env.reqId) = .error .badRequest := by
    have hlen : l.length = (l.map env.reqId).length := by simp
    have hemp : l = [] ↔ l.map env.reqId = [] := by simp
    rw [hlen, hemp] at hn
    generalize l.map env.reqId = ids at hn
    clear hlen hemp
    have hinj : ((List.range ids.length).map (fun (n : Nat) => (n : Int))).Nodup :=
      List.Pairwise.map _ (fun a b h e => h (Int.ofNat.inj e)) List.nodup_range
    unfold checkIds
    match ids with
    | [] => rfl
    | [x] =>
      by_cases hx : x = 0
      · subst hx; simp at hn
      · simp [hx]
    | x :: y :: t =>
      dsimp only
      by_cases hd : (x :: y :: t).Nodup
      · rw [if_neg (not_not_intro hd)]
        split
        · rename_i ha
          exfalso
          rcases hn with hn | hn
          · cases hn
          · have hsub : (List.range (x :: y :: t).length).map (fun (n : Nat) => (n : Int)) ⊆ x :: y :: t := by
              intro z hz
              obtain ⟨n, hn', rfl⟩ := List.mem_map.1 hz
              exact List.contains_iff_mem.1 (List.all_eq_true.1 ha n hn')
            exact hn ((List.subperm_of_subset hinj hsub).perm_of_length_le (by simp)).symm
        · rfl
      · rw [if_pos hd]
  unfold processRequest checkBody
  dsimp only
  rw [key]

example : processRequest exEnv exHandler ⟨.reqs "ir" [(1, .compositeSig), (1, .compositeSig)], false, .signature⟩ 9 "u" false =
    .error .badRequest := by decide +kernel

example : processRequest { exEnv with version := fun _ => 1 } exHandler ⟨.p10cr "csr", false, .signature⟩ 9 "u" false =
    .error .badCertTemplate := by decide +kernel

end Verif.Hybrid.SunReq
