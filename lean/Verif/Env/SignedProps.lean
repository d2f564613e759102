import Verif.Check.ChainProps
import Verif.Env.Signed
import Verif.Env.EnvProps

/-!
# C155: signed private keys of a key generation authority
-/

namespace Verif.Env

open Verif.CA hiding Bytes Msg
open Verif.Prot Verif.Check

variable {C D A Q P N K S : Type}

/-! ## Specification -/

/-- The attribute is a message digest with `n` values, of which the first is `d`. -/
def DigestIs (e : SdE C D A Q P) (n : Nat) (a : SAttr) (d : Bytes) : Prop :=
  a.oid = [1, 2, 840, 113549, 1, 9, 4] ∧ a.vals.length = n ∧ ∃ v vs, a.vals = v :: vs ∧ e.decMd v = some d

/-- The attributes: every message digest is well-formed, `d` is the last one, and a content type is that of a key
package. -/
structure AttrsOk (e : SdE C D A Q P) (n : Nat) (as : List SAttr) (d : Bytes) : Prop where
  wf : ∀ a ∈ as, a.oid = [1, 2, 840, 113549, 1, 9, 4] → ∃ d', DigestIs e n a d'
  last : ∃ pre a post, as = pre ++ a :: post ∧ DigestIs e n a d ∧ ∀ b ∈ post, b.oid ≠ [1, 2, 840, 113549, 1, 9, 4]
  ctype : ∃ a ∈ as, a.oid = [1, 2, 840, 113549, 1, 9, 3] ∧ e.ctDer ∈ a.vals

/-- The algorithms: the digest algorithm is that of the structure, and its hash function that of the signature. -/
def AlgsOk (e : SdE C D A Q P) (sig : A) (dig content : D) : Prop :=
  e.encDig content = e.encDig dig ∧ e.isSig sig = true ∧ ∃ h, e.digName dig = .ok (some h) ∧ e.sigName sig = .ok h

/-- A `SignerInfo` for the certificate, with digest `d` and signature `g`. -/
structure SignerOk (e : SdE C D A Q P) (n : Nat) (content : D) (kga : C) (s : SInfo D A) (d g : Bytes) : Prop where
  version : s.version = 3
  sid : ∃ k, s.sid = .ski k
  attrs : AttrsOk e n s.attrs d
  algs : AlgsOk e s.sigAlg s.digAlg content
  conform : e.conform s.sigAlg kga = true
  signature : s.signature = some g

/-- The key at the index of a key package. -/
structure PackageKey (e : SdE C D A Q P) (n i : Nat) (save : Option String) (b : Bytes) (p : P) : Prop where
  mk ::
  ex : ∃ l q, e.decPkg b = some (l, []) ∧ l.length = n ∧ l[i]? = some q ∧ e.qVersion q = 1 ∧ e.qLoad q = .ok p ∧
    ∀ t, save = some t → e.qExport q p t = .ok ()

/-- A signed key: the key package in a structure of version 3, a chain from the certificate of the authority to a trust
anchor, the extended key usage, and a signature over the content by the first signer. -/
structure SignedKey (e : SdE C D A Q P) (ch : ChainEnv C N K) (as : List C) (n i : Nat)
    (save : Option String) (sd : SData C D A) (p : P) (kga : C) (rest : List C) (s : SInfo D A) : Prop where
  version : sd.version = 3
  ctype : sd.ctype = [2, 16, 840, 1, 101, 2, 1, 2, 78, 5]
  size : sd.digestAlgs.length = n ∧ sd.infos.length = n
  content : ∃ b dig d g h, sd.content = some b ∧ PackageKey e n i save b p ∧ sd.digestAlgs[i]? = some dig ∧
    sd.infos[0]? = some s ∧ SignerOk e n dig kga s d g ∧ e.cmpHash s.sigAlg kga = .ok h ∧ e.hash h b = .ok d ∧
    e.verify kga g (e.encInfo sd.ctype (some b)) (some h) = .ok ()
  certs : ((kga :: rest).map some).Perm sd.certs
  linked : Linked ch kga rest
  anchor : lastOf kga rest ∈ as
  eku : ∃ l, ch.eku kga = .ok (some l) ∧ "cmKGA" ∈ l
  openssl : (∀ c ∈ kga :: rest, ch.pqKey c = false) → ch.openssl (kga :: rest) = .ok ()

/-! ## Lemmas -/

theorem attrStep_ct (e : SdE C D A Q P) (n : Nat) (st : Bool × Option Bytes) (a : SAttr)
    (h : a.oid = [1, 2, 840, 113549, 1, 9, 3]) :
    attrStep e n st a = .ok (st.1 || a.vals.any (fun v => decide (v = e.ctDer)), st.2) := if_pos h

theorem attrStep_md (e : SdE C D A Q P) (n : Nat) (st st' : Bool × Option Bytes) (a : SAttr)
    (h : a.oid = [1, 2, 840, 113549, 1, 9, 4]) :
    attrStep e n st a = .ok st' ↔ ∃ d, DigestIs e n a d ∧ st' = (st.1, some d) := by
  unfold attrStep
  rw [if_neg (by rw [h]; decide), if_pos (show a.oid = messageDigestOid from h)]
  constructor
  · intro hx
    split at hx
    · cases hx
    · rename_i hl
      split at hx
      · cases hx
      · rename_i v vs hv
        split at hx
        · cases hx
        · rename_i d hd
          cases hx
          exact ⟨d, ⟨h, Classical.not_not.1 hl, v, vs, hv, hd⟩, rfl⟩
  · rintro ⟨d, ⟨_, hl, v, vs, hv, hd⟩, rfl⟩
    rw [if_neg (not_not_intro hl), hv]
    dsimp only
    rw [hd]

theorem attrStep_other (e : SdE C D A Q P) (n : Nat) (st : Bool × Option Bytes) (a : SAttr)
    (h : a.oid ≠ [1, 2, 840, 113549, 1, 9, 3]) (h' : a.oid ≠ [1, 2, 840, 113549, 1, 9, 4]) :
    attrStep e n st a = .ok st := by
  unfold attrStep
  rw [if_neg (show ¬ a.oid = contentTypeOid from h), if_neg (show ¬ a.oid = messageDigestOid from h')]

/-- The content type of a key package is named. -/
def HasCt (e : SdE C D A Q P) (as : List SAttr) : Prop := ∃ a ∈ as, a.oid = [1, 2, 840, 113549, 1, 9, 3] ∧ e.ctDer ∈ a.vals

/-- The last digest, or the one from before. -/
def LastMd (e : SdE C D A Q P) (n : Nat) (m m' : Option Bytes) (as : List SAttr) : Prop :=
  (m' = m ∧ ∀ a ∈ as, a.oid ≠ [1, 2, 840, 113549, 1, 9, 4]) ∨ ∃ pre a post d, as = pre ++ a :: post ∧ DigestIs e n a d ∧
    (∀ b ∈ post, b.oid ≠ [1, 2, 840, 113549, 1, 9, 4]) ∧ m' = some d

theorem lastMd_skip {e : SdE C D A Q P} {n : Nat} {m m' : Option Bytes} {a : SAttr} {as : List SAttr}
    (h : a.oid ≠ [1, 2, 840, 113549, 1, 9, 4]) : LastMd e n m m' (a :: as) ↔ LastMd e n m m' as := by
  constructor
  · rintro (⟨rfl, h1⟩ | ⟨pre, b, post, d, h1, h2, h3, h4⟩)
    · exact .inl ⟨rfl, fun b hb => h1 b (List.mem_cons_of_mem _ hb)⟩
    · cases pre with
      | nil =>
        rw [List.nil_append, List.cons.injEq] at h1
        obtain ⟨rfl, rfl⟩ := h1
        exact absurd h2.1 h
      | cons c pre =>
        rw [List.cons_append, List.cons.injEq] at h1
        exact .inr ⟨pre, b, post, d, h1.2, h2, h3, h4⟩
  · rintro (⟨rfl, h1⟩ | ⟨pre, b, post, d, rfl, h2, h3, h4⟩)
    · refine .inl ⟨rfl, fun b hb => ?_⟩
      rcases List.mem_cons.1 hb with rfl | hb
      · exact h
      · exact h1 b hb
    · exact .inr ⟨a :: pre, b, post, d, rfl, h2, h3, h4⟩

theorem lastMd_md {e : SdE C D A Q P} {n : Nat} {m m' : Option Bytes} {a : SAttr} {as : List SAttr} {d : Bytes}
    (h : DigestIs e n a d) : LastMd e n m m' (a :: as) ↔ LastMd e n (some d) m' as := by
  have hd : ∀ d', DigestIs e n a d' → d' = d := by
    rintro d' ⟨_, _, v, vs, h1, h2⟩
    obtain ⟨_, _, w, ws, h3, h4⟩ := h
    rw [h1, List.cons.injEq] at h3
    rw [h3.1, h4] at h2
    exact (Option.some.inj h2).symm
  constructor
  · rintro (⟨rfl, h1⟩ | ⟨pre, b, post, d', h1, h2, h3, h4⟩)
    · exact absurd h.1 (h1 a (List.mem_cons_self ..))
    · cases pre with
      | nil =>
        rw [List.nil_append, List.cons.injEq] at h1
        obtain ⟨rfl, rfl⟩ := h1
        exact .inl ⟨by rw [h4, hd d' h2], h3⟩
      | cons c pre =>
        rw [List.cons_append, List.cons.injEq] at h1
        exact .inr ⟨pre, b, post, d', h1.2, h2, h3, h4⟩
  · rintro (⟨rfl, h1⟩ | ⟨pre, b, post, d', rfl, h2, h3, h4⟩)
    · exact .inr ⟨[], a, as, d, rfl, h, h1, rfl⟩
    · exact .inr ⟨a :: pre, b, post, d', rfl, h2, h3, h4⟩

theorem hasCt_skip {e : SdE C D A Q P} {a : SAttr} {as : List SAttr} (h : a.oid ≠ [1, 2, 840, 113549, 1, 9, 3]) :
    HasCt e (a :: as) ↔ HasCt e as := by
  constructor
  · rintro ⟨b, hb, h1, h2⟩
    rcases List.mem_cons.1 hb with rfl | hb
    · exact absurd h1 h
    · exact ⟨b, hb, h1, h2⟩
  · rintro ⟨b, hb, h1, h2⟩
    exact ⟨b, List.mem_cons_of_mem _ hb, h1, h2⟩

theorem attrLoop_iff (e : SdE C D A Q P) (n : Nat) (as : List SAttr) : ∀ f m f' m',
    attrLoop e n (f, m) as = .ok (f', m') ↔
      (∀ a ∈ as, a.oid = [1, 2, 840, 113549, 1, 9, 4] → ∃ d', DigestIs e n a d') ∧
      (f' = true ↔ f = true ∨ HasCt e as) ∧ LastMd e n m m' as := by
  induction as with
  | nil =>
    intro f m f' m'
    have h1 : ¬ HasCt e [] := fun ⟨_, h, _⟩ => nomatch h
    have h2 : LastMd e n m m' [] ↔ m' = m := by
      constructor
      · rintro (⟨h, _⟩ | ⟨pre, b, post, d, h, _⟩)
        · exact h
        · cases pre <;> cases h
      · exact fun h => .inl ⟨h, nofun⟩
    rw [h2]
    constructor
    · intro h
      cases h
      exact ⟨nofun, ⟨.inl, fun h => h.resolve_right h1⟩, rfl⟩
    · rintro ⟨_, h, rfl⟩
      have : f' = f := by
        cases f <;> cases f' <;> simp_all
      rw [this]
      rfl
  | cons a as ih =>
    intro f m f' m'
    unfold attrLoop
    by_cases h1 : a.oid = [1, 2, 840, 113549, 1, 9, 3]
    · rw [attrStep_ct e n (f, m) a h1]
      dsimp only
      rw [ih]
      have hm : a.oid ≠ [1, 2, 840, 113549, 1, 9, 4] := by rw [h1]; decide
      rw [lastMd_skip hm]
      have hw : (∀ b ∈ a :: as, b.oid = [1, 2, 840, 113549, 1, 9, 4] → ∃ d', DigestIs e n b d') ↔
          ∀ b ∈ as, b.oid = [1, 2, 840, 113549, 1, 9, 4] → ∃ d', DigestIs e n b d' := by
        constructor
        · exact fun h b hb => h b (List.mem_cons_of_mem _ hb)
        · intro h b hb
          rcases List.mem_cons.1 hb with rfl | hb
          · exact fun h => absurd h hm
          · exact h b hb
      rw [hw]
      have hc : HasCt e (a :: as) ↔ e.ctDer ∈ a.vals ∨ HasCt e as := by
        constructor
        · rintro ⟨b, hb, g1, g2⟩
          rcases List.mem_cons.1 hb with rfl | hb
          · exact .inl g2
          · exact .inr ⟨b, hb, g1, g2⟩
        · rintro (g | ⟨b, hb, g1, g2⟩)
          · exact ⟨a, List.mem_cons_self .., h1, g⟩
          · exact ⟨b, List.mem_cons_of_mem _ hb, g1, g2⟩
      rw [hc]
      have ha : (f || a.vals.any fun v => decide (v = e.ctDer)) = true ↔ f = true ∨ e.ctDer ∈ a.vals := by
        rw [Bool.or_eq_true, List.any_eq_true]
        constructor
        · rintro (h | ⟨v, hv, hd⟩)
          · exact .inl h
          · exact .inr (of_decide_eq_true hd ▸ hv)
        · rintro (h | h)
          · exact .inl h
          · exact .inr ⟨_, h, decide_eq_true rfl⟩
      rw [ha, or_assoc]
    · by_cases h2 : a.oid = [1, 2, 840, 113549, 1, 9, 4]
      · cases hs : attrStep e n (f, m) a with
        | error x =>
          constructor
          · nofun
          · rintro ⟨g, _, _⟩
            obtain ⟨d, hd⟩ := g a (List.mem_cons_self ..) h2
            rw [(attrStep_md e n (f, m) (f, some d) a h2).2 ⟨d, hd, rfl⟩] at hs
            cases hs
        | ok st =>
          obtain ⟨d, hd, rfl⟩ := (attrStep_md e n (f, m) st a h2).1 hs
          dsimp only
          rw [ih, lastMd_md hd, hasCt_skip h1]
          constructor
          · rintro ⟨g1, g2, g3⟩
            refine ⟨fun b hb => ?_, g2, g3⟩
            rcases List.mem_cons.1 hb with rfl | hb
            · exact fun _ => ⟨d, hd⟩
            · exact g1 b hb
          · rintro ⟨g1, g2, g3⟩
            exact ⟨fun b hb => g1 b (List.mem_cons_of_mem _ hb), g2, g3⟩
      · rw [attrStep_other e n (f, m) a h1 h2]
        dsimp only
        rw [ih, lastMd_skip h2, hasCt_skip h1]
        constructor
        · rintro ⟨g1, g2, g3⟩
          refine ⟨fun b hb => ?_, g2, g3⟩
          rcases List.mem_cons.1 hb with rfl | hb
          · exact fun h => absurd h h2
          · exact g1 b hb
        · rintro ⟨g1, g2, g3⟩
          exact ⟨fun b hb => g1 b (List.mem_cons_of_mem _ hb), g2, g3⟩

/-! ## C155 -/

/-- C155: exactly the attributes with the content type and a well-formed digest are accepted, and the last digest counts. -/
theorem C155_attrs (e : SdE C D A Q P) (n : Nat) (as : List SAttr) (d : Bytes) :
    signedAttrs e n as = .ok d ↔ AttrsOk e n as d := by
  unfold signedAttrs
  constructor
  · intro h
    cases hl : attrLoop e n (false, none) as with
    | error x => rw [hl] at h; cases h
    | ok st =>
      rw [hl] at h
      obtain ⟨f, m⟩ := st
      cases m with
      | none => cases h
      | some d' =>
        dsimp only at h
        split at h
        · cases h
        · rename_i hf
          cases h
          obtain ⟨g1, g2, g3⟩ := (attrLoop_iff e n as _ _ _ _).1 hl
          refine ⟨g1, ?_, ?_⟩
          · rcases g3 with ⟨g3, _⟩ | ⟨pre, a, post, d', g4, g5, g6, g7⟩
            · cases g3
            · cases g7
              exact ⟨pre, a, post, g4, g5, g6⟩
          · rcases g2.1 (by simpa using hf) with h | h
            · cases h
            · exact h
  · rintro ⟨g1, ⟨pre, a, post, g2, g3, g4⟩, g5⟩
    rw [(attrLoop_iff e n as false none true (some d)).2
      ⟨g1, ⟨fun _ => .inr g5, fun _ => rfl⟩, .inr ⟨pre, a, post, d, g2, g3, g4, rfl⟩⟩]
    rfl

/-- C155: exactly the algorithms with one hash function are accepted. -/
theorem C155_algs (e : SdE C D A Q P) (sig : A) (dig content : D) :
    sigAndDigest e sig dig content = .ok () ↔ AlgsOk e sig dig content := by
  unfold sigAndDigest AlgsOk
  constructor
  · intro h
    split at h
    · cases h
    · rename_i h1
      split at h
      · cases h
      · rename_i h2
        split at h
        · split at h <;> cases h
        · rename_i x hx
          split at h
          · cases h
          · rename_i y hy
            split at h
            · cases h
            · rename_i h3
              exact ⟨Classical.not_not.1 h1, by simpa using h2, y, by rw [hx, Classical.not_not.1 h3], hy⟩
  · rintro ⟨h1, h2, h, h3, h4⟩
    rw [if_neg (not_not_intro h1), if_neg (by simp [h2]), h3]
    dsimp only
    rw [h4]
    dsimp only
    rw [if_neg (not_not_intro rfl)]

theorem C155_signer (e : SdE C D A Q P) (infos : List (SInfo D A)) (content : D) (kga : C) (n : Nat) (d g : Bytes)
    (a : A) : signerInfo e infos content kga n = .ok (d, a, g) ↔
      infos.length = n ∧ ∃ s, infos[0]? = some s ∧ s.sigAlg = a ∧ SignerOk e n content kga s d g := by
  unfold signerInfo
  constructor
  · intro h
    split at h
    · cases h
    · rename_i hl
      refine ⟨Classical.not_not.1 hl, ?_⟩
      cases infos with
      | nil => cases h
      | cons s ss =>
        refine ⟨s, rfl, ?_⟩
        dsimp only at h
        split at h
        · cases h
        · rename_i h1
          cases hs : s.sid with
          | iss _ _ => rw [hs] at h; cases h
          | ski k =>
            rw [hs] at h
            dsimp only at h
            cases ha : signedAttrs e n s.attrs with
            | error x => rw [ha] at h; cases h
            | ok d' =>
              rw [ha] at h
              dsimp only at h
              cases hg : sigAndDigest e s.sigAlg s.digAlg content with
              | error x => rw [hg] at h; cases h
              | ok u =>
                rw [hg] at h
                dsimp only at h
                split at h
                · cases h
                · rename_i h2
                  cases hq : s.signature with
                  | none => rw [hq] at h; cases h
                  | some g' =>
                    rw [hq] at h
                    cases h
                    exact ⟨rfl, Classical.not_not.1 h1, ⟨k, hs⟩, (C155_attrs _ _ _ _).1 ha, (C155_algs _ _ _ _).1 hg,
                      by simpa using h2, hq⟩
  · rintro ⟨hl, s, hs, rfl, h⟩
    rw [if_neg (not_not_intro hl)]
    cases infos with
    | nil => cases hs
    | cons t ss =>
      cases hs
      dsimp only
      obtain ⟨k, hk⟩ := h.sid
      rw [if_neg (not_not_intro h.version), hk]
      dsimp only
      rw [(C155_attrs _ _ _ _).2 h.attrs]
      dsimp only
      rw [(C155_algs _ _ _ _).2 h.algs]
      dsimp only
      rw [if_neg (by simp [h.conform]), h.signature]

theorem savedAs_iff (e : SdE C D A Q P) (q : Q) (p r : P) (save : Option String) :
    savedAs e q p save = .ok r ↔ r = p ∧ ∀ t, save = some t → e.qExport q p t = .ok () := by
  cases save with
  | none =>
    constructor
    · intro h
      cases h
      exact ⟨rfl, nofun⟩
    · rintro ⟨rfl, _⟩
      rfl
  | some t =>
    unfold savedAs
    dsimp only
    constructor
    · intro h
      cases hx : e.qExport q p t with
      | error x => rw [hx] at h; cases h
      | ok u =>
        rw [hx] at h
        cases h
        exact ⟨rfl, fun t' ht => by cases ht; exact hx⟩
    · rintro ⟨rfl, h⟩
      rw [h t rfl]

/-- C155: exactly the key at the index of a package of the expected size is taken. -/
theorem C155_package (e : SdE C D A Q P) (n i : Nat) (save : Option String) (content : Option Bytes) (b : Bytes) (p : P) :
    contentKey e n i save content = .ok (b, p) ↔ content = some b ∧ PackageKey e n i save b p := by
  unfold contentKey
  constructor
  · intro h
    cases content with
    | none => cases h
    | some b' =>
      dsimp only at h
      cases hd : e.decPkg b' with
      | none => rw [hd] at h; cases h
      | some x =>
        obtain ⟨l, rest⟩ := x
        rw [hd] at h
        dsimp only at h
        split at h
        · cases h
        · rename_i hr
          obtain ⟨r, h1, h2⟩ := map_ok h
          cases h2
          have hr := Classical.not_not.1 hr
          subst hr
          refine ⟨rfl, ⟨l, ?_⟩⟩
          unfold keyPackage at h1
          split at h1
          · cases h1
          · rename_i hl
            cases hq : l[i]? with
            | none => rw [hq] at h1; cases h1
            | some q =>
              rw [hq] at h1
              dsimp only at h1
              split at h1
              · cases h1
              · rename_i hv
                cases ho : e.qLoad q with
                | error x => rw [ho] at h1; cases h1
                | ok p' =>
                  rw [ho] at h1
                  obtain ⟨rfl, h4⟩ := (savedAs_iff _ _ _ _ _).1 h1
                  exact ⟨q, hd, Classical.not_not.1 hl, rfl, Classical.not_not.1 hv, ho, h4⟩
  · rintro ⟨rfl, ⟨l, q, h1, h2, h3, h4, h5, h6⟩⟩
    dsimp only
    rw [h1]
    dsimp only
    rw [if_neg (not_not_intro rfl)]
    unfold keyPackage
    rw [if_neg (not_not_intro h2), h3]
    dsimp only
    rw [if_neg (not_not_intro h4), h5]
    dsimp only
    rw [(savedAs_iff _ _ _ _ _).2 ⟨rfl, h6⟩]
    rfl

theorem onlyCerts_ok {l : List (Option C)} {r : List C} (h : onlyCerts l = .ok r) : l = r.map some := by
  induction l generalizing r with
  | nil => cases h; rfl
  | cons a l ih =>
    cases a with
    | none => cases h
    | some c =>
      unfold onlyCerts at h
      cases ho : onlyCerts l with
      | error x => rw [ho] at h; cases h
      | ok l' =>
        rw [ho] at h
        cases h
        rw [ih ho]
        rfl

theorem onlyCerts_map (l : List C) : onlyCerts (l.map some) = .ok l := by
  induction l with
  | nil => rfl
  | cons a l ih =>
    rw [List.map_cons, onlyCerts, ih]

theorem contentSigned_iff (e : SdE C D A Q P) (d : Bytes) (a : A) (g b info : Bytes) (kga : C) :
    contentSigned e (d, a, g) b info kga = .ok () ↔
      ∃ h, e.cmpHash a kga = .ok h ∧ e.hash h b = .ok d ∧ e.verify kga g info (some h) = .ok () := by
  unfold contentSigned
  dsimp only
  constructor
  · intro h
    cases hc : e.cmpHash a kga with
    | error x => rw [hc] at h; cases h
    | ok n =>
      rw [hc] at h
      dsimp only at h
      cases hh : e.hash n b with
      | error x => rw [hh] at h; cases h
      | ok d' =>
        rw [hh] at h
        dsimp only at h
        split at h
        · cases h
        · rename_i hd
          exact ⟨n, rfl, by rw [hh, Classical.not_not.1 hd], h⟩
  · rintro ⟨n, h1, h2, h3⟩
    rw [h1]
    dsimp only
    rw [h2]
    dsimp only
    rw [if_neg (not_not_intro rfl)]
    exact h3

theorem eku_kga {ch : ChainEnv C N K} {kga : C} (h : validateEku (ch.eku kga) ["cmKGA"] .strict = .ok ()) :
    ∃ l, ch.eku kga = .ok (some l) ∧ "cmKGA" ∈ l := by
  cases hq : ch.eku kga with
  | error e => rw [hq] at h; cases h
  | ok oo =>
    cases oo with
    | none => rw [hq] at h; cases h
    | some l =>
      rw [hq] at h
      refine ⟨l, rfl, ?_⟩
      have hx := ((validateEku_good ⟨by decide, by decide⟩ l .strict (by decide)).1 h).1
      change 1 = _ at hx
      cases hf : l.filter (fun o => decide (o ∈ cmpEkus.filter (fun n => decide (n ∈ ["cmKGA"])))) with
      | nil => rw [hf] at hx; cases hx
      | cons a t =>
        have hm : a ∈ l.filter (fun o => decide (o ∈ cmpEkus.filter (fun n => decide (n ∈ ["cmKGA"])))) := by
          rw [hf]; exact List.mem_cons_self ..
        obtain ⟨m1, m2⟩ := List.mem_filter.1 hm
        have m3 := (List.mem_filter.1 (of_decide_eq_true m2)).2
        have m4 : a ∈ ["cmKGA"] := of_decide_eq_true m3
        rw [List.mem_singleton] at m4
        exact m4 ▸ m1

theorem kgaCert_ok [DecidableEq C] [DecidableEq N] {ch : ChainEnv C N K} {anchors : Except PyErr (List C)}
    {ok : C → Except PyErr Unit} {kga : C} {rest : List C} (h : validateKgaCert ch anchors ok (kga :: rest) = .ok ()) :
    (∃ as, anchors = .ok as ∧ lastOf kga rest ∈ as) ∧
      ((∀ c ∈ kga :: rest, ch.pqKey c = false) → ch.openssl (kga :: rest) = .ok ()) := by
  unfold validateKgaCert at h
  dsimp only at h
  cases ha : areAnchors anchors [lastOf kga rest] with
  | error e => rw [ha] at h; cases h
  | ok u =>
    rw [ha] at h
    dsimp only at h
    obtain ⟨as, ea, hm⟩ := areAnchors_ok ha
    refine ⟨⟨as, ea, hm _ (List.mem_singleton.2 rfl)⟩, fun hpq => ?_⟩
    have : ((kga :: rest).any ch.pqKey) = false := List.any_eq_false.2 (fun c hc => by rw [hpq c hc]; simp)
    rw [this, if_neg (by simp)] at h
    cases ho : ch.openssl (kga :: rest) with
    | error e => rw [ho] at h; cases h
    | ok u => rfl

/-- C155: a key is taken from signed data only if it is signed by a trusted key generation authority. -/
theorem C155_accepted [DecidableEq C] [DecidableEq N] (e : SdE C D A Q P) (ch : ChainEnv C N K)
    (anchors : Except PyErr (List C)) (n i : Nat) (save : Option String) (sd : SData C D A) (p : P)
    (h : openSigned e ch anchors n i save sd = .ok p) :
    ∃ as kga rest s, anchors = .ok as ∧ SignedKey e ch as n i save sd p kga rest s := by
  unfold openSigned at h
  by_cases h1 : sd.version ≠ 3
  · rw [if_pos h1] at h; cases h
  rw [if_neg h1] at h
  by_cases h2 : sd.digestAlgs.length ≠ n
  · rw [if_pos h2] at h; cases h
  rw [if_neg h2] at h
  cases hd : sd.digestAlgs[i]? with
  | none => rw [hd] at h; cases h
  | some dig =>
  rw [hd] at h
  dsimp only at h
  by_cases h3 : sd.ctype ≠ keyPackageOid
  · rw [if_pos h3] at h; cases h
  rw [if_neg h3] at h
  cases hk : contentKey e n i save sd.content with
  | error x => rw [hk] at h; cases h
  | ok x =>
  rw [hk] at h
  obtain ⟨b, q⟩ := x
  dsimp only at h
  unfold sdTail at h
  cases hc : sdChain ch sd.certs with
  | error x => rw [hc] at h; cases h
  | ok l =>
  rw [hc] at h
  cases l with
  | nil => cases h
  | cons kga rest =>
  dsimp only at h
  cases hs : signerInfo e sd.infos dig kga n with
  | error x => rw [hs] at h; cases h
  | ok y =>
  rw [hs] at h
  obtain ⟨d, a, g⟩ := y
  dsimp only at h
  cases ht : sdTrust e ch anchors sd b (d, a, g) kga rest with
  | error x => rw [ht] at h; cases h
  | ok u =>
  rw [ht] at h
  cases h
  obtain ⟨hl, s, hs0, rfl, hso⟩ := (C155_signer _ _ _ _ _ _ _ _).1 hs
  obtain ⟨hcont, hpk⟩ := (C155_package _ _ _ _ _ _ _).1 hk
  unfold sdTrust at ht
  dsimp only at ht
  cases hq : contentSigned e (d, s.sigAlg, g) b (e.encInfo sd.ctype sd.content) kga with
  | error x => rw [hq] at ht; cases ht
  | ok u =>
  rw [hq] at ht
  dsimp only at ht
  cases ho : e.onlyHash s.sigAlg with
  | error x => rw [ho] at ht; cases ht
  | ok w =>
  rw [ho] at ht
  dsimp only at ht
  cases hv : validateKgaCert ch anchors (fun c => e.verify c g (e.encInfo sd.ctype sd.content) w) (kga :: rest) with
  | error x => rw [hv] at ht; cases ht
  | ok u =>
  rw [hv] at ht
  dsimp only at ht
  obtain ⟨⟨as, has, hm⟩, hssl⟩ := kgaCert_ok hv
  obtain ⟨n', q1, q2, q3⟩ := (contentSigned_iff _ _ _ _ _ _ _).1 hq
  unfold sdChain at hc
  cases hoc : onlyCerts sd.certs with
  | error x => rw [hoc] at hc; cases hc
  | ok l =>
  rw [hoc] at hc
  obtain ⟨hp, hL⟩ := C122_certs ch l _ hc
  refine ⟨as, kga, rest, s, has, ⟨Classical.not_not.1 h1, Classical.not_not.1 h3, ⟨Classical.not_not.1 h2, hl⟩,
    ⟨b, dig, d, g, n', hcont, hpk, hd, hs0, hso, q1, q2, ?_⟩, ?_, (hL kga rest rfl).1, hm, eku_kga ht, hssl⟩⟩
  · rw [hcont] at q3
    exact q3
  · rw [onlyCerts_ok hoc]
    exact hp.map some

/-! ## Building and opening -/

/-- The certificates of the authority lead to a trust anchor in the way the code asks for, and the certificate is for key
generation. -/
structure KgaTrusted [DecidableEq N] (ch : ChainEnv C N K) (as : List C) (certs : List C) (kga : C)
    (rest : List C) : Prop where
  chain : signedDataCerts ch certs = .ok (kga :: rest)
  anchor : lastOf kga rest ∈ as
  pq : (kga :: rest).any ch.pqKey = true → buildChain ch kga rest = .ok (kga :: rest)
  trad : (kga :: rest).any ch.pqKey = false → ch.openssl (kga :: rest) = .ok ()
  eku : ∃ l, ch.eku kga = .ok (some l) ∧ l.Nodup ∧ "cmKGA" ∈ l

theorem eku_of {ch : ChainEnv C N K} {kga : C} {l : List String} (h : ch.eku kga = .ok (some l)) (hn : l.Nodup)
    (hm : "cmKGA" ∈ l) : validateEku (ch.eku kga) ["cmKGA"] .strict = .ok () := by
  rw [h]
  exact (C123_eku_partial l ["cmKGA"] hn ⟨by decide, by decide⟩ .strict (by decide)).2
    ⟨fun n hn => by rw [List.mem_singleton.1 hn]; exact hm, nofun⟩

theorem kgaCert_of [DecidableEq C] [DecidableEq N] {ch : ChainEnv C N K} {as certs : List C} {ok : C → Except PyErr Unit}
    {kga : C} {rest : List C} (h : KgaTrusted ch as certs kga rest) (hok : ok kga = .ok ()) :
    validateKgaCert ch (.ok as) ok (kga :: rest) = .ok () := by
  unfold validateKgaCert
  dsimp only
  rw [areAnchors_of (List.ne_nil_of_mem h.anchor) (fun c hc => by rw [List.mem_singleton.1 hc]; exact h.anchor)]
  dsimp only
  cases hp : (kga :: rest).any ch.pqKey with
  | true =>
    rw [if_pos rfl, h.pq hp]
    dsimp only
    rw [if_neg (not_not_intro rfl)]
  | false =>
    rw [if_neg (by simp), h.trad hp]
    dsimp only
    unfold findSigner
    rw [hok]
    rfl

/-- The parameters fit together for a signing key and its certificate. -/
structure SdLaws (e : SdE C D A Q P) (key : P) (c : C) (h : String) : Prop where
  md : ∀ b, e.decMd (e.encMd b) = some b
  pkg : ∀ l, e.decPkg (e.encPkg l) = some (l, [])
  dig : ∀ da, e.hashAlg h = .ok da → e.digName da = .ok (some h)
  alg : ∀ a, e.keyAlg key h = .ok a → e.isSig a = true ∧ e.sigName a = .ok h ∧ e.cmpHash a c = .ok h ∧
    e.conform a c = true ∧ ∃ w, e.onlyHash a = .ok w ∧ ∀ m s, e.sign key m h = .ok s → e.verify c s m w = .ok ()
  sig : ∀ m s, e.sign key m h = .ok s → e.verify c s m (some h) = .ok ()

/-- C155: what is built for a private key with a trusted certificate that has a subject key identifier is opened to the
same key. -/
theorem C155_roundtrip [DecidableEq C] [DecidableEq N] (e : SdE C D A Q P) (ch : ChainEnv C N K) {as : List C} {key p : P}
    {c : C} {sigHash : Option String} {content : Option Bytes} {chain : Option (List C)} {sd : SData C D A} {h : String}
    {rest : List C} {k : Bytes} (hb : mkSigned e key c sigHash none content (some [p]) chain false = .ok sd)
    (hh : sigHash = some h ∨ sigHash = none ∧ e.keyHash key = .ok h) (hl : SdLaws e key c h)
    (hq : ∀ q, e.qMake p "raw" = .ok q → e.qVersion q = 1 ∧ e.qLoad q = .ok p) (hs : e.ski c = some k)
    (ht : KgaTrusted ch as (chain.getD [c]) c rest) : openSigned e ch (.ok as) 1 0 none sd = .ok p := by
  unfold mkSigned at hb
  rw [if_neg (fun x => nomatch x.2)] at hb
  have hn : hashNames e key sigHash none = .ok (h, h) := by
    unfold hashNames sigHashOf
    rcases hh with rfl | ⟨rfl, hh⟩
    · rfl
    · dsimp only
      rw [hh]
      rfl
  rw [hn] at hb
  dsimp only at hb
  unfold mkContent mkPackage mkPackage at hb
  dsimp only at hb
  cases hm : e.qMake p "raw" with
  | error x => rw [hm] at hb; cases hb
  | ok q =>
  rw [hm] at hb
  cases hda : e.hashAlg h with
  | error x => rw [hda] at hb; cases hb
  | ok da =>
  rw [hda] at hb
  change (match mkSignerInfo e key c (e.encPkg [q]) h h false 3 with
    | .error x => .error x
    | .ok s => .ok ⟨3, [da], keyPackageOid, some (e.encPkg [q]), (chain.getD [c]).map some, [s]⟩ :
      Except PyErr (SData C D A)) = .ok sd at hb
  cases hsi : mkSignerInfo e key c (e.encPkg [q]) h h false 3 with
  | error x => rw [hsi] at hb; cases hb
  | ok s =>
  rw [hsi] at hb
  cases hb
  unfold mkSignerInfo at hsi
  cases hd : e.hash h (e.encPkg [q]) with
  | error x => rw [hd] at hsi; cases hsi
  | ok d =>
  rw [hd] at hsi
  dsimp only at hsi
  cases ha : e.keyAlg key h with
  | error x => rw [ha] at hsi; cases hsi
  | ok a =>
  rw [ha] at hsi
  dsimp only at hsi
  rw [hda] at hsi
  dsimp only at hsi
  cases hg : e.sign key (e.encInfo keyPackageOid (some (e.encPkg [q]))) h with
  | error x => rw [hg] at hsi; cases hsi
  | ok g =>
  rw [hg] at hsi
  cases hsi
  obtain ⟨a1, a2, a3, a4, w, a5, a6⟩ := hl.alg a ha
  obtain ⟨q1, q2⟩ := hq q hm
  unfold openSigned
  rw [if_neg (not_not_intro rfl)]
  dsimp only
  rw [if_neg (not_not_intro (show [da].length = 1 from rfl)), show [da][0]? = some da from rfl]
  dsimp only
  rw [if_neg (not_not_intro rfl)]
  rw [(C155_package e 1 0 none _ _ p).2 ⟨rfl, ⟨[q], q, hl.pkg _, rfl, rfl, q1, q2, nofun⟩⟩]
  dsimp only
  unfold sdTail sdChain
  dsimp only
  rw [onlyCerts_map]
  dsimp only
  rw [ht.chain]
  dsimp only
  have hso : SignerOk e 1 da c ⟨3, mkSid e c, mkAttrs e d, a, da, some (if false = true then g ++ [65, 65] else g)⟩ d g := by
    refine ⟨rfl, ⟨k, ?_⟩, ⟨?_, ?_, ?_⟩, ⟨rfl, a1, h, hl.dig da hda, a2⟩, a4, rfl⟩
    · unfold mkSid
      dsimp only
      rw [hs]
    · intro b hb hb'
      rcases List.mem_cons.1 hb with rfl | hb
      · exact absurd hb' (show ¬ contentTypeOid = [1, 2, 840, 113549, 1, 9, 4] by decide)
      · rw [List.mem_singleton.1 hb]
        exact ⟨d, rfl, rfl, _, _, rfl, hl.md d⟩
    · exact ⟨[⟨contentTypeOid, [e.ctDer]⟩], ⟨messageDigestOid, [e.encMd d]⟩, [], rfl, ⟨rfl, rfl, _, _, rfl, hl.md d⟩, nofun⟩
    · exact ⟨⟨contentTypeOid, [e.ctDer]⟩, List.mem_cons_self .., rfl, List.mem_cons_self ..⟩
  rw [(C155_signer e _ da c 1 d g a).2 ⟨rfl, _, rfl, rfl, hso⟩]
  dsimp only
  unfold sdTrust
  dsimp only
  rw [(contentSigned_iff e d a g _ _ c).2 ⟨h, a3, hd, hl.sig _ _ hg⟩]
  dsimp only
  rw [a5]
  dsimp only
  rw [kgaCert_of ht (a6 _ _ hg)]
  dsimp only
  obtain ⟨l, l1, l2, l3⟩ := ht.eku
  rw [eku_of l1 l2 l3]

/-! ## Differences -/

/-- What is built with a certificate without a subject key identifier is never accepted. -/
theorem C155_ski_refuted [DecidableEq C] [DecidableEq N] (e : SdE C D A Q P) (ch : ChainEnv C N K) {anchors : Except PyErr (List C)}
    {key p : P} {c : C} {sigHash digHash : Option String} {content : Option Bytes} {keys : Option (List P)}
    {chain : Option (List C)} {bad : Bool} {sd : SData C D A} {n i : Nat} {save : Option String}
    (hb : mkSigned e key c sigHash digHash content keys chain bad = .ok sd) (hs : e.ski c = none) :
    openSigned e ch anchors n i save sd ≠ .ok p := by
  intro h
  obtain ⟨as, kga, rest, s, _, hk⟩ := C155_accepted e ch anchors n i save sd p h
  obtain ⟨b, dig, d, g, w, _, _, _, h0, hso, _⟩ := hk.content
  obtain ⟨k, hsid⟩ := hso.sid
  unfold mkSigned at hb
  split at hb
  · cases hb
  · split at hb
    · cases hb
    · split at hb
      · cases hb
      · split at hb
        · cases hb
        · split at hb
          · cases hb
          · rename_i s' hsi
            cases hb
            cases h0
            unfold mkSignerInfo at hsi
            split at hsi
            · cases hsi
            · split at hsi
              · cases hsi
              · split at hsi
                · cases hsi
                · split at hsi
                  · cases hsi
                  · cases hsi
                    unfold mkSid at hsid
                    dsimp only at hsid
                    rw [hs] at hsid
                    cases hsid

/-- The signature is over the content, so the signed attributes are not protected: any further attribute, of another type,
can be added to the first signer of an accepted structure. -/
theorem C155_attrs_refuted [DecidableEq C] [DecidableEq N] (e : SdE C D A Q P) (ch : ChainEnv C N K)
    (anchors : Except PyErr (List C)) (n i : Nat) (save : Option String) (sd : SData C D A) (s : SInfo D A)
    (ss : List (SInfo D A)) (a : SAttr) (hs : sd.infos = s :: ss) (h1 : a.oid ≠ [1, 2, 840, 113549, 1, 9, 3])
    (h2 : a.oid ≠ [1, 2, 840, 113549, 1, 9, 4]) :
    openSigned e ch anchors n i save { sd with infos := { s with attrs := a :: s.attrs } :: ss } =
      openSigned e ch anchors n i save sd := by
  have hq : signedAttrs e n (a :: s.attrs) = signedAttrs e n s.attrs := by
    unfold signedAttrs
    rw [attrLoop, attrStep_other e n _ a h1 h2]
  unfold openSigned sdTail signerInfo
  dsimp only
  rw [hs]
  dsimp only
  rw [hq]
  rfl

/-- With several signers, only the first one is looked at. -/
theorem C155_signers_refuted [DecidableEq C] [DecidableEq N] (e : SdE C D A Q P) (ch : ChainEnv C N K)
    (anchors : Except PyErr (List C)) (n i : Nat) (save : Option String) (sd : SData C D A) (s : SInfo D A)
    (ss ss' : List (SInfo D A)) (hs : sd.infos = s :: ss) (hl : ss'.length = ss.length) :
    openSigned e ch anchors n i save { sd with infos := s :: ss' } = openSigned e ch anchors n i save sd := by
  unfold openSigned sdTail signerInfo
  dsimp only
  rw [hs]
  dsimp only
  rw [show (s :: ss').length = (s :: ss).length by rw [List.length_cons, List.length_cons, hl]]
  rfl

/-- CMS allows one message digest; with several, the others are not compared. -/
theorem C155_repeated_refuted (e : SdE C D A Q P) (d d' : Bytes) (v : Bytes) (h : e.decMd v = some d')
    (hd : e.decMd (e.encMd d) = some d) :
    signedAttrs e 1 (⟨[1, 2, 840, 113549, 1, 9, 4], [v]⟩ :: mkAttrs e d) = .ok d := by
  rw [C155_attrs]
  refine ⟨?_, ?_, ?_⟩
  · intro a ha ho
    rcases List.mem_cons.1 ha with rfl | ha
    · exact ⟨d', rfl, rfl, _, _, rfl, h⟩
    · rcases List.mem_cons.1 ha with rfl | ha
      · exact absurd ho (show ¬ contentTypeOid = [1, 2, 840, 113549, 1, 9, 4] by decide)
      · rw [List.mem_singleton.1 ha]
        exact ⟨d, rfl, rfl, _, _, rfl, hd⟩
  · exact ⟨[⟨[1, 2, 840, 113549, 1, 9, 4], [v]⟩, ⟨contentTypeOid, [e.ctDer]⟩], ⟨messageDigestOid, [e.encMd d]⟩, [], rfl,
      ⟨rfl, rfl, _, _, rfl, hd⟩, nofun⟩
  · exact ⟨⟨contentTypeOid, [e.ctDer]⟩, List.mem_cons_of_mem _ (List.mem_cons_self ..), rfl, List.mem_cons_self ..⟩

end Verif.Env
