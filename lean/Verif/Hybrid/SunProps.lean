import Verif.Hybrid.Sun
import Verif.Hybrid.RelatedProps

/-!
# Properties of the forms of Sun hybrid certificates (C139)

The specification: a certificate *carries* a second key and a second signature in a form, if its first extension of each
kind holds the value or the hash, as the form says. Conversion must replace these two extensions and nothing else.
-/

namespace Verif.Hybrid

open Verif.CA Verif.Check

variable {S K : Type}

/-! ## Extensions -/

theorem nonCrit_iff (l : List Ext) (o : Oid) (e : Ext) :
    nonCrit l o = .ok e ↔ IsFirst l o e ∧ e.critical = false := by
  unfold nonCrit
  constructor
  · intro h
    cases hg : getExt l o with
    | none => rw [hg] at h; cases h
    | some x =>
      rw [hg] at h
      dsimp only at h
      by_cases hc : x.critical = true
      · rw [if_pos hc] at h; cases h
      · rw [if_neg hc] at h
        cases h
        exact ⟨(getExt_iff _ _ _).1 hg, by simpa using hc⟩
  · rintro ⟨h, hc⟩
    rw [(getExt_iff _ _ _).2 h]
    dsimp only
    rw [if_neg (by rw [hc]; decide)]

/-- `l'` is `l` with its first extension `x` of the OID `o` replaced by `y`. -/
def Replaced (o : Oid) (x y : Ext) (l l' : List Ext) : Prop :=
  ∃ pre post, l = pre ++ x :: post ∧ l' = pre ++ y :: post ∧ x.oid = o ∧ y.oid = o ∧ ∀ z ∈ pre, z.oid ≠ o

theorem patchExt_split (pre post : List Ext) (x y : Ext) (hx : x.oid = y.oid) (hp : ∀ z ∈ pre, z.oid ≠ y.oid) :
    patchExt (pre ++ x :: post) y = .ok (pre ++ y :: post) := by
  induction pre with
  | nil =>
    rw [List.nil_append]
    unfold patchExt
    rw [if_pos hx]
    rfl
  | cons z l ih =>
    rw [List.cons_append]
    unfold patchExt
    rw [if_neg (hp z List.mem_cons_self), ih (fun w hw => hp w (List.mem_cons_of_mem _ hw))]
    rfl

theorem patchExt_some (l l' : List Ext) (y : Ext) (h : patchExt l y = .ok l') : ∃ x, Replaced y.oid x y l l' := by
  induction l generalizing l' with
  | nil => cases h
  | cons z l ih =>
    unfold patchExt at h
    by_cases hz : z.oid = y.oid
    · rw [if_pos hz] at h
      cases h
      exact ⟨z, [], l, rfl, rfl, hz, rfl, fun w hw => by cases hw⟩
    · rw [if_neg hz] at h
      cases hp : patchExt l y with
      | error e => rw [hp] at h; cases h
      | ok m =>
        rw [hp] at h
        cases h
        obtain ⟨x, pre, post, h1, h2, h3, h4, h5⟩ := ih m hp
        refine ⟨x, z :: pre, post, by rw [h1]; rfl, by rw [h2]; rfl, h3, h4, ?_⟩
        intro w hw
        rcases List.mem_cons.1 hw with rfl | hw
        · exact hz
        · exact h5 w hw

theorem IsFirst.patch {l : List Ext} {o : Oid} {x y : Ext} (h : IsFirst l o x) (hy : y.oid = o) :
    ∃ l', patchExt l y = .ok l' ∧ Replaced o x y l l' ∧ IsFirst l' o y := by
  obtain ⟨pre, post, rfl, hx, hp⟩ := h
  refine ⟨pre ++ y :: post, patchExt_split pre post x y (hx.trans hy.symm) (by rw [hy]; exact hp), ?_, ?_⟩
  · exact ⟨pre, post, rfl, rfl, hx, hy, hp⟩
  · exact ⟨pre, post, rfl, hy, hp⟩

theorem IsFirst.unique {l : List Ext} {o : Oid} {x y : Ext} (hx : IsFirst l o x) (hy : IsFirst l o y) : x = y := by
  have h1 := (getExt_iff _ _ _).2 hx
  rw [(getExt_iff _ _ _).2 hy] at h1
  exact (Option.some.inj h1).symm

/-- Replacing an extension keeps the first extension of another kind. -/
theorem Replaced.first {o o' : Oid} {x y e : Ext} {l l' : List Ext} (h : Replaced o x y l l') (ho : o ≠ o')
    (he : IsFirst l o' e) : IsFirst l' o' e := by
  obtain ⟨pre, post, rfl, rfl, hx, hy, hp⟩ := h
  rw [← getExt_iff] at he ⊢
  unfold getExt at he ⊢
  rw [List.find?_append] at he ⊢
  have hx' : decide (x.oid = o') = false := decide_eq_false (fun c => ho (hx.symm.trans c))
  have hy' : decide (y.oid = o') = false := decide_eq_false (fun c => ho (hy.symm.trans c))
  rw [List.find?_cons, hx'] at he
  rw [List.find?_cons, hy']
  exact he

theorem Replaced.symm {o : Oid} {x y : Ext} {l l' : List Ext} (h : Replaced o x y l l') : Replaced o y x l' l := by
  obtain ⟨pre, post, h1, h2, hx, hy, hp⟩ := h
  exact ⟨pre, post, h2, h1, hy, hx, hp⟩

theorem Replaced.refl {o : Oid} {x : Ext} {l : List Ext} (h : IsFirst l o x) : Replaced o x x l l := by
  obtain ⟨pre, post, h1, hx, hp⟩ := h
  exact ⟨pre, post, h1, h1, hx, hx, hp⟩

theorem Replaced.isFirst {o : Oid} {x y : Ext} {l l' : List Ext} (h : Replaced o x y l l') :
    IsFirst l o x ∧ IsFirst l' o y := by
  obtain ⟨pre, post, h1, h2, hx, hy, hp⟩ := h
  exact ⟨⟨pre, post, h1, hx, hp⟩, ⟨pre, post, h2, hy, hp⟩⟩

/-- The result is determined by the list. -/
theorem Replaced.patch {o : Oid} {x y : Ext} {l l' : List Ext} (h : Replaced o x y l l') : patchExt l y = .ok l' := by
  obtain ⟨pre, post, rfl, rfl, hx, hy, hp⟩ := h
  exact patchExt_split pre post x y (hx.trans hy.symm) (by rw [hy]; exact hp)

theorem Replaced.trans {o : Oid} {x y z : Ext} {l m r : List Ext} (h : Replaced o x y l m) (h' : Replaced o y z m r) :
    Replaced o x z l r := by
  obtain ⟨pre, post, rfl, rfl, hx, hy, hp⟩ := h
  refine ⟨pre, post, rfl, ?_, hx, ?_, hp⟩
  · have h1 := h'.patch
    obtain ⟨_, _, _, _, _, hz, _⟩ := h'
    rw [patchExt_split pre post y z (hy.trans hz.symm) (by rw [hz]; exact hp)] at h1
    exact (Except.ok.inj h1).symm
  · obtain ⟨_, _, _, _, _, hz, _⟩ := h'
    exact hz

theorem sunOids_ne : sunKeyOid ≠ sunSigOid := by decide

/-! ## What a certificate carries -/

/-- A second key and a second signature with the names of the hashes and the locations. -/
structure SunData (K : Type) where
  key : K
  keyHash : String
  keyHashOid : Oid
  keyDigest : Bytes
  keyLoc : String
  sig : Bytes
  sigAlg : Alg
  sigHash : String
  sigHashOid : Oid
  sigDigest : Bytes
  sigLoc : String

/-- The content of the extension of the key: the SPKI, or its hash. -/
def SunData.pubVal (env : SunEnv S K) (d : SunData K) (byVal : Bool) : SunVal where
  byVal := byVal
  value := if byVal then env.spkiOf d.key else d.keyDigest
  alg := env.spkiAlg (env.spkiOf d.key)
  hashAlg := some ⟨d.keyHashOid, none⟩
  loc := some d.keyLoc

/-- The content of the extension of the signature: the signature, or its hash. -/
def SunData.sigVal (env : SunEnv S K) (d : SunData K) (byVal : Bool) : SunVal where
  byVal := byVal
  value := if byVal then d.sig else d.sigDigest
  alg := d.sigAlg
  hashAlg := some ⟨d.sigHashOid, some env.nullParams⟩
  loc := some d.sigLoc

/-- The extension of the key. -/
def SunData.pubExt (env : SunEnv S K) (d : SunData K) (byVal : Bool) : Ext :=
  ⟨sunKeyOid, false, env.encPub (d.pubVal env byVal)⟩

/-- The extension of the signature. -/
def SunData.sigExt (env : SunEnv S K) (d : SunData K) (byVal : Bool) : Ext :=
  ⟨sunSigOid, false, env.encSig (d.sigVal env byVal)⟩

/-- The hashes are what they are called, and the codecs work for the values concerned. -/
structure SunData.Valid (env : SunEnv S K) (d : SunData K) : Prop where
  keyName : env.hashOid d.keyHash = .ok d.keyHashOid
  keyOid : env.hashOf d.keyHashOid = .ok (some d.keyHash)
  keyDig : env.digest d.keyHash (env.spkiOf d.key) = .ok d.keyDigest
  sigName : env.hashOid d.sigHash = .ok d.sigHashOid
  sigOid : env.hashOf d.sigHashOid = .ok (some d.sigHash)
  sigDig : env.digest d.sigHash d.sig = .ok d.sigDigest
  sigNe : d.sig ≠ []
  keyLocNe : d.keyLoc ≠ ""
  sigLocNe : d.sigLoc ≠ ""
  spki : env.decSpki (env.spkiOf d.key) = some (env.spkiOf d.key, [])
  load : env.loadKey (env.spkiOf d.key) = .ok d.key
  pub : ∀ b, env.decPub (env.encPub (d.pubVal env b)) = some (d.pubVal env b, [])
  sg : ∀ b, env.decSig (env.encSig (d.sigVal env b)) = some (d.sigVal env b, [])

/-- The locations serve the key and the signature. -/
structure SunData.Served (env : SunEnv S K) (fetch : String → Except PyErr Bytes) (d : SunData K) : Prop where
  key : fetch d.keyLoc = .ok (env.spkiOf d.key)
  sig : fetch d.sigLoc = .ok d.sig

/-- The certificate carries the key and the signature in the form `f`. -/
def Carries (env : SunEnv S K) (d : SunData K) (c : Cert) (f : SunForm) : Prop :=
  IsFirst c.tbs.exts sunKeyOid (d.pubExt env f.pub) ∧ IsFirst c.tbs.exts sunSigOid (d.sigExt env f.sig)

theorem procKey_of (env : SunEnv S K) (d : SunData K) (h : d.Valid env) :
    procKey env (env.spkiOf d.key) = .ok d.key := by
  unfold procKey
  rw [h.spki]
  dsimp only
  rw [if_neg (by simp), h.load]

theorem sunPubExt_of (env : SunEnv S K) (d : SunData K) (h : d.Valid env) (b : Bool) :
    sunPubExt env d.key b (some d.keyHash) (some d.keyLoc) false = .ok (d.pubExt env b) := by
  unfold sunPubExt sunPubVal
  cases b
  · dsimp only [Bool.false_eq_true, if_false]
    rw [if_neg (by decide), h.keyDig]
    dsimp only
    rw [h.keyName]
    rfl
  · dsimp only
    rw [if_pos rfl]
    dsimp only
    rw [h.keyName]
    rfl

theorem sunSigExt_of (env : SunEnv S K) (d : SunData K) (h : d.Valid env) (b : Bool) :
    sunSigExt env d.sig b d.sigAlg (some d.sigHash) (some d.sigLoc) false = .ok (d.sigExt env b) := by
  unfold sunSigExt sunSigVal
  rw [if_neg h.sigNe]
  cases b
  · dsimp only
    rw [if_neg (by decide), h.sigDig]
    dsimp only
    rw [h.sigName]
    rfl
  · dsimp only
    rw [if_pos rfl]
    dsimp only
    rw [h.sigName]
    rfl

theorem withExts_exts (c : Cert) (l : List Ext) : (withExts c l).tbs.exts = l := rfl

theorem withExts_self (c : Cert) : withExts c c.tbs.exts = c := rfl

theorem withExts_twice (c : Cert) (l m : List Ext) : withExts (withExts c l) m = withExts c m := rfl

theorem convPub_of (env : SunEnv S K) (fetch : String → Except PyErr Bytes) (d : SunData K) (h : d.Valid env)
    (hs : d.Served env fetch) (c : Cert) (b b' : Bool) (hc : IsFirst c.tbs.exts sunKeyOid (d.pubExt env b)) :
    ∃ l, convPub env fetch c b' = .ok (withExts c l) ∧
      Replaced sunKeyOid (d.pubExt env b) (d.pubExt env b') c.tbs.exts l := by
  unfold convPub
  rw [(nonCrit_iff _ _ _).2 ⟨hc, rfl⟩]
  dsimp only
  rw [show (d.pubExt env b).value = env.encPub (d.pubVal env b) from rfl, h.pub b]
  dsimp only
  by_cases hb : b' = b
  · subst hb
    rw [if_pos (show b' = (d.pubVal env b').byVal from rfl)]
    exact ⟨c.tbs.exts, rfl, Replaced.refl hc⟩
  · rw [if_neg (show ¬ b' = (d.pubVal env b).byVal from hb)]
    rw [show sunHash env (d.pubVal env b) = .ok (some d.keyHash) from h.keyOid]
    dsimp only
    have hk : otherKey env fetch (d.pubVal env b) b' = .ok d.key := by
      unfold otherKey
      cases b' with
      | true =>
        rw [if_pos rfl]
        rw [show (d.pubVal env b).loc = some d.keyLoc from rfl]
        dsimp only
        rw [hs.key]
        exact procKey_of env d h
      | false =>
        cases b with
        | false => exact absurd rfl hb
        | true =>
          rw [if_neg (by decide)]
          rw [show (d.pubVal env true).loc = some d.keyLoc from rfl]
          dsimp only
          rw [if_neg h.keyLocNe]
          exact procKey_of env d h
    rw [hk]
    dsimp only
    rw [show (d.pubVal env b).loc = some d.keyLoc from rfl, show (d.pubExt env b).critical = false from rfl,
      sunPubExt_of env d h b']
    dsimp only
    obtain ⟨l, h1, h2, -⟩ := hc.patch (y := d.pubExt env b') rfl
    rw [h1]
    exact ⟨l, rfl, h2⟩

theorem convSig_of (env : SunEnv S K) (fetch : String → Except PyErr Bytes) (d : SunData K) (h : d.Valid env)
    (hs : d.Served env fetch) (c : Cert) (b b' : Bool) (hc : IsFirst c.tbs.exts sunSigOid (d.sigExt env b)) :
    ∃ l, convSig env fetch c b' = .ok (withExts c l) ∧
      Replaced sunSigOid (d.sigExt env b) (d.sigExt env b') c.tbs.exts l := by
  unfold convSig
  rw [(nonCrit_iff _ _ _).2 ⟨hc, rfl⟩]
  dsimp only
  rw [show (d.sigExt env b).value = env.encSig (d.sigVal env b) from rfl, h.sg b]
  dsimp only
  by_cases hb : b' = b
  · subst hb
    rw [if_pos (show b' = (d.sigVal env b').byVal from rfl)]
    exact ⟨c.tbs.exts, rfl, Replaced.refl hc⟩
  · rw [if_neg (show ¬ b' = (d.sigVal env b).byVal from hb)]
    rw [show sunHash env (d.sigVal env b) = .ok (some d.sigHash) from h.sigOid]
    dsimp only
    have hk : otherSig fetch (d.sigVal env b) b' = .ok d.sig := by
      unfold otherSig
      cases b' with
      | true =>
        rw [if_pos rfl]
        rw [show (d.sigVal env b).loc = some d.sigLoc from rfl]
        dsimp only
        rw [if_neg h.sigLocNe, hs.sig]
        dsimp only
        rw [if_neg h.sigNe]
      | false =>
        cases b with
        | false => exact absurd rfl hb
        | true => rfl
    rw [hk]
    dsimp only
    rw [show (d.sigVal env b).loc = some d.sigLoc from rfl, show (d.sigExt env b).critical = false from rfl,
      show (d.sigVal env b).alg = d.sigAlg from rfl, sunSigExt_of env d h b']
    dsimp only
    obtain ⟨l, h1, h2, -⟩ := hc.patch (y := d.sigExt env b') rfl
    rw [h1]
    exact ⟨l, rfl, h2⟩

/-- If the locations serve the key and the signature of a certificate, it can be converted from any form to any form.
The result carries them in the wanted form; only the two extensions are replaced, in place, and names, key, validity,
other extensions and signature are kept. -/
theorem C139_convert (env : SunEnv S K) (fetch : String → Except PyErr Bytes) (d : SunData K) (h : d.Valid env)
    (hs : d.Served env fetch) (c : Cert) (f g : SunForm) (hc : Carries env d c f) :
    ∃ m l, convert env fetch c g = .ok (withExts c l) ∧
      Replaced sunKeyOid (d.pubExt env f.pub) (d.pubExt env g.pub) c.tbs.exts m ∧
      Replaced sunSigOid (d.sigExt env f.sig) (d.sigExt env g.sig) m l ∧ Carries env d (withExts c l) g := by
  unfold convert
  obtain ⟨m, h1, h2⟩ := convPub_of env fetch d h hs c f.pub g.pub hc.1
  rw [h1]
  dsimp only
  obtain ⟨l, h3, h4⟩ := convSig_of env fetch d h hs (withExts c m) f.sig g.sig (h2.first sunOids_ne hc.2)
  rw [h3]
  refine ⟨m, l, rfl, h2, h4, ?_, ?_⟩
  · exact h4.first sunOids_ne.symm h2.isFirst.2
  · exact h4.isFirst.2

/-- The two replacements of extensions of different kinds can be exchanged. -/
theorem Replaced.swap {o o' : Oid} {x y x' y' : Ext} {l m r : List Ext} (ho : o ≠ o') (h : Replaced o x y l m)
    (h' : Replaced o' x' y' m r) : ∃ n, Replaced o' x' y' l n ∧ Replaced o x y n r := by
  have hf : IsFirst l o' x' := h.symm.first ho h'.isFirst.1
  have hy' : y'.oid = o' := by
    obtain ⟨_, _, _, _, _, hy, _⟩ := h'
    exact hy
  have hy : y.oid = o := by
    obtain ⟨_, _, _, _, _, hy, _⟩ := h
    exact hy
  obtain ⟨n, h1, h2, h3⟩ := hf.patch hy'
  have hf2 : IsFirst n o x := h2.first ho.symm h.isFirst.1
  obtain ⟨q, h4, h5, h6⟩ := hf2.patch hy
  refine ⟨n, h2, ?_⟩
  have : q = r := by
    clear h1 h3 h4 h6 hf hf2
    obtain ⟨a, b, rfl, rfl, hx, -, ha⟩ := h
    obtain ⟨a', b', e1, rfl, hx', -, ha'⟩ := h'
    rcases List.append_eq_append_iff.1 e1 with ⟨z, hz1, hz2⟩ | ⟨z, hz1, hz2⟩
    · cases z with
      | nil =>
        rw [List.nil_append] at hz2
        exact absurd (List.cons.inj hz2).1 (fun c => ho (by rw [← hy, c, hx']))
      | cons w z =>
        rw [List.cons_append] at hz2
        obtain ⟨rfl, rfl⟩ := List.cons.inj hz2
        subst hz1
        have e2 := h2.patch
        rw [show a ++ x :: (z ++ x' :: b') = (a ++ x :: z) ++ x' :: b' by simp] at e2
        rw [patchExt_split (a ++ x :: z) b' x' y' (hx'.trans hy'.symm) ?_] at e2
        · cases e2
          have e3 := h5.patch
          rw [show (a ++ x :: z) ++ y' :: b' = a ++ x :: (z ++ y' :: b') by simp] at e3
          rw [patchExt_split a _ x y (hx.trans hy.symm) (by rw [hy]; exact ha)] at e3
          cases e3
          simp
        · rw [hy']
          intro w' hw'
          rcases List.mem_append.1 hw' with hw' | hw'
          · exact ha' w' (List.mem_append.2 (.inl hw'))
          · rcases List.mem_cons.1 hw' with rfl | hw'
            · rw [hx]
              exact ho
            · exact ha' w' (List.mem_append.2 (.inr (List.mem_cons_of_mem _ hw')))
    · cases z with
      | nil =>
        rw [List.nil_append] at hz2
        exact absurd (List.cons.inj hz2).1 (fun c => ho (by rw [← hy, ← c, hx']))
      | cons w z =>
        rw [List.cons_append] at hz2
        obtain ⟨rfl, rfl⟩ := List.cons.inj hz2
        subst hz1
        have e2 := h2.patch
        rw [show (a' ++ x' :: z) ++ x :: b = a' ++ x' :: (z ++ x :: b) by simp] at e2
        rw [patchExt_split a' _ x' y' (hx'.trans hy'.symm) (by rw [hy']; exact ha')] at e2
        cases e2
        have e3 := h5.patch
        rw [show a' ++ y' :: (z ++ x :: b) = (a' ++ y' :: z) ++ x :: b by simp] at e3
        rw [patchExt_split (a' ++ y' :: z) b x y (hx.trans hy.symm) ?_] at e3
        · cases e3
          simp
        · rw [hy]
          intro w' hw'
          rcases List.mem_append.1 hw' with hw' | hw'
          · exact ha w' (List.mem_append.2 (.inl hw'))
          · rcases List.mem_cons.1 hw' with rfl | hw'
            · rw [hy']
              exact ho.symm
            · exact ha w' (List.mem_append.2 (.inr (List.mem_cons_of_mem _ hw')))
  rw [← this]
  exact h5

/-- Conversion over another form is the direct conversion. -/
theorem C139_compose (env : SunEnv S K) (fetch : String → Except PyErr Bytes) (d : SunData K) (h : d.Valid env)
    (hs : d.Served env fetch) (c c' : Cert) (f g g' : SunForm) (hc : Carries env d c f)
    (hg : convert env fetch c g = .ok c') : convert env fetch c' g' = convert env fetch c g' := by
  obtain ⟨m, l, h1, h2, h3, h4⟩ := C139_convert env fetch d h hs c f g hc
  rw [h1] at hg
  cases hg
  obtain ⟨m', l', h5, h6, h7, -⟩ := C139_convert env fetch d h hs (withExts c l) g g' h4
  obtain ⟨n, n', h8, h9, h10, -⟩ := C139_convert env fetch d h hs c f g' hc
  rw [h5, h8]
  rw [withExts_exts] at h6
  obtain ⟨q, h11, h12⟩ := h3.swap sunOids_ne.symm h6
  have e1 : Replaced sunKeyOid (d.pubExt env f.pub) (d.pubExt env g'.pub) c.tbs.exts q := h2.trans h11
  have e2 : q = n := by
    have := e1.patch
    rw [h9.patch] at this
    exact (Except.ok.inj this).symm
  subst e2
  have e3 : Replaced sunSigOid (d.sigExt env f.sig) (d.sigExt env g'.sig) q l' := h12.trans h7
  have e4 : l' = n' := by
    have := e3.patch
    rw [h10.patch] at this
    exact (Except.ok.inj this).symm
  subst e4
  rfl

/-- A certificate that already has the wanted form is returned unchanged, whatever the locations serve. -/
theorem C139_same (env : SunEnv S K) (fetch : String → Except PyErr Bytes) (c : Cert) (f : SunForm) (x y : Ext)
    (p s : SunVal × Bytes) (hx : IsFirst c.tbs.exts sunKeyOid x) (hy : IsFirst c.tbs.exts sunSigOid y)
    (cx : x.critical = false) (cy : y.critical = false) (dx : env.decPub x.value = some p)
    (dy : env.decSig y.value = some s) (hp : p.1.byVal = f.pub) (hq : s.1.byVal = f.sig) :
    convert env fetch c f = .ok c := by
  unfold convert convPub
  rw [(nonCrit_iff _ _ _).2 ⟨hx, cx⟩]
  dsimp only
  rw [dx]
  dsimp only
  rw [if_pos hp.symm]
  dsimp only
  unfold convSig
  rw [(nonCrit_iff _ _ _).2 ⟨hy, cy⟩]
  dsimp only
  rw [dy]
  dsimp only
  rw [if_pos hq.symm]

/-- Conversion and back gives the same certificate. -/
theorem C139_round_trip (env : SunEnv S K) (fetch : String → Except PyErr Bytes) (d : SunData K) (h : d.Valid env)
    (hs : d.Served env fetch) (c c' : Cert) (f g : SunForm) (hc : Carries env d c f)
    (hg : convert env fetch c g = .ok c') : convert env fetch c' f = .ok c := by
  rw [C139_compose env fetch d h hs c c' f g f hc hg]
  exact C139_same env fetch c f _ _ _ _ hc.1 hc.2 rfl rfl (h.pub f.pub) (h.sg f.sig) rfl rfl

/-- `o` is the OID of at most one extension. -/
def AtMostOne (l : List Ext) (o : Oid) : Prop :=
  ∀ pre x post, l = pre ++ x :: post → x.oid = o → ∀ z ∈ post, z.oid ≠ o

theorem lastVals_other (env : SunEnv S K) (pre post : List Ext) (p s : Option SunVal)
    (h1 : ∀ x ∈ pre, x.oid ≠ sunKeyOid) (h2 : ∀ x ∈ pre, x.oid ≠ sunSigOid) :
    lastVals env (pre ++ post) p s = lastVals env post p s := by
  induction pre with
  | nil => rfl
  | cons x l ih =>
    rw [List.cons_append]
    conv => lhs; unfold lastVals
    rw [if_neg (h1 x List.mem_cons_self), if_neg (h2 x List.mem_cons_self)]
    exact ih (fun y hy => h1 y (List.mem_cons_of_mem _ hy)) (fun y hy => h2 y (List.mem_cons_of_mem _ hy))

/-- The form of a certificate is what it carries, if it has one extension of each kind. -/
theorem C139_form (env : SunEnv S K) (d : SunData K) (h : d.Valid env) (c : Cert) (f : SunForm)
    (hc : Carries env d c f) (u1 : AtMostOne c.tbs.exts sunKeyOid) (u2 : AtMostOne c.tbs.exts sunSigOid) :
    sunForm env c = .ok f := by
  have key : lastVals env c.tbs.exts none none = .ok (some (d.pubVal env f.pub), some (d.sigVal env f.sig)) := by
    obtain ⟨⟨a, b, e1, hx, ha⟩, ⟨a', b', e2, hy, ha'⟩⟩ := hc
    have hb := u1 a _ b e1 hx
    have hb' := u2 a' _ b' e2 hy
    rw [e1] at e2 ⊢
    rcases List.append_eq_append_iff.1 e2 with ⟨z, hz1, hz2⟩ | ⟨z, hz1, hz2⟩
    · cases z with
      | nil =>
        rw [List.nil_append] at hz2
        have := congrArg Ext.oid (List.cons.inj hz2).1
        exact absurd this sunOids_ne
      | cons w z =>
        rw [List.cons_append] at hz2
        obtain ⟨rfl, rfl⟩ := List.cons.inj hz2
        subst hz1
        rw [lastVals_other env a _ none none ha (fun x hx => ha' x (List.mem_append.2 (.inl hx)))]
        unfold lastVals
        rw [if_pos hx, show (d.pubExt env f.pub).value = env.encPub (d.pubVal env f.pub) from rfl, h.pub]
        dsimp only
        rw [lastVals_other env z _ _ _ (fun x hx => hb x (List.mem_append.2 (.inl hx)))
          (fun x hx => ha' x (List.mem_append.2 (.inr (List.mem_cons_of_mem _ hx))))]
        unfold lastVals
        rw [if_neg (by rw [hy]; exact sunOids_ne.symm), if_pos hy,
          show (d.sigExt env f.sig).value = env.encSig (d.sigVal env f.sig) from rfl, h.sg]
        dsimp only
        have := lastVals_other env b' [] (some (d.pubVal env f.pub)) (some (d.sigVal env f.sig))
          (fun x hx => hb x (List.mem_append.2 (.inr (List.mem_cons_of_mem _ hx)))) hb'
        rw [List.append_nil] at this
        rw [this]
        rfl
    · cases z with
      | nil =>
        rw [List.nil_append] at hz2
        have := congrArg Ext.oid (List.cons.inj hz2).1
        exact absurd this.symm sunOids_ne
      | cons w z =>
        rw [List.cons_append] at hz2
        obtain ⟨rfl, rfl⟩ := List.cons.inj hz2
        subst hz1
        rw [List.append_assoc, List.cons_append,
          lastVals_other env a' _ none none (fun x hx => ha x (List.mem_append.2 (.inl hx))) ha']
        unfold lastVals
        rw [if_neg (by rw [hy]; exact sunOids_ne.symm), if_pos hy,
          show (d.sigExt env f.sig).value = env.encSig (d.sigVal env f.sig) from rfl, h.sg]
        dsimp only
        rw [lastVals_other env z _ _ _ (fun x hx => ha x (List.mem_append.2 (.inr (List.mem_cons_of_mem _ hx))))
          (fun x hx => hb' x (List.mem_append.2 (.inl hx)))]
        unfold lastVals
        rw [if_pos hx, show (d.pubExt env f.pub).value = env.encPub (d.pubVal env f.pub) from rfl, h.pub]
        dsimp only
        have := lastVals_other env b [] (some (d.pubVal env f.pub)) (some (d.sigVal env f.sig)) hb
          (fun x hx => hb' x (List.mem_append.2 (.inr (List.mem_cons_of_mem _ hx))))
        rw [List.append_nil] at this
        rw [this]
        rfl
  unfold sunForm
  rw [key]
  dsimp only
  rw [show (d.pubVal env f.pub).byVal = f.pub from rfl, show (d.sigVal env f.sig).byVal = f.sig from rfl]
  cases f <;> rfl

/-! ## What conversion does not do -/

/-- The extension of a key given by reference is replaced by whatever key the location serves: the hash in the
extension is not compared. -/
theorem convPub_fetch (env : SunEnv S K) (fetch : String → Except PyErr Bytes) (c : Cert) (x : Ext) (v : SunVal)
    (rest : Bytes) (a : Alg) (h u : String) (o : Oid) (b : Bytes) (k : K) (hx : IsFirst c.tbs.exts sunKeyOid x)
    (cx : x.critical = false) (dx : env.decPub x.value = some (v, rest)) (hv : v.byVal = false)
    (ha : v.hashAlg = some a) (hh : env.hashOf a.oid = .ok (some h)) (ho : env.hashOid h = .ok o)
    (hl : v.loc = some u) (hf : fetch u = .ok b) (hk : procKey env b = .ok k) :
    ∃ l, convPub env fetch c true = .ok (withExts c l) ∧
      Replaced sunKeyOid x ⟨sunKeyOid, false, env.encPub
        ⟨true, env.spkiOf k, env.spkiAlg (env.spkiOf k), some ⟨o, none⟩, some u⟩⟩ c.tbs.exts l := by
  unfold convPub
  rw [(nonCrit_iff _ _ _).2 ⟨hx, cx⟩]
  dsimp only
  rw [dx]
  dsimp only
  rw [if_neg (by rw [hv]; decide)]
  have e1 : sunHash env v = .ok (some h) := by
    unfold sunHash
    rw [ha]
    exact hh
  have e2 : otherKey env fetch v true = .ok k := by
    unfold otherKey
    rw [if_pos rfl, hl]
    dsimp only
    rw [hf]
    exact hk
  rw [e1]
  dsimp only
  rw [e2]
  dsimp only
  have e3 : sunPubExt env k true (some h) v.loc x.critical = .ok ⟨sunKeyOid, false, env.encPub
        ⟨true, env.spkiOf k, env.spkiAlg (env.spkiOf k), some ⟨o, none⟩, some u⟩⟩ := by
    unfold sunPubExt sunPubVal
    dsimp only
    rw [if_pos rfl]
    dsimp only
    rw [ho, hl, cx]
  rw [e3]
  dsimp only
  obtain ⟨l, h1, h2, h3⟩ := hx.patch (y := ⟨sunKeyOid, false, env.encPub
        ⟨true, env.spkiOf k, env.spkiAlg (env.spkiOf k), some ⟨o, none⟩, some u⟩⟩) rfl
  rw [h1]
  exact ⟨l, rfl, h2⟩

/-- The same for the signature. -/
theorem convSig_fetch (env : SunEnv S K) (fetch : String → Except PyErr Bytes) (c : Cert) (x : Ext) (v : SunVal)
    (rest : Bytes) (a : Alg) (h u : String) (o : Oid) (b : Bytes) (hx : IsFirst c.tbs.exts sunSigOid x)
    (cx : x.critical = false) (dx : env.decSig x.value = some (v, rest)) (hv : v.byVal = false)
    (ha : v.hashAlg = some a) (hh : env.hashOf a.oid = .ok (some h)) (ho : env.hashOid h = .ok o)
    (hl : v.loc = some u) (hu : u ≠ "") (hf : fetch u = .ok b) (hb : b ≠ []) :
    ∃ l, convSig env fetch c true = .ok (withExts c l) ∧
      Replaced sunSigOid x ⟨sunSigOid, false, env.encSig ⟨true, b, v.alg, some ⟨o, some env.nullParams⟩, some u⟩⟩
        c.tbs.exts l := by
  unfold convSig
  rw [(nonCrit_iff _ _ _).2 ⟨hx, cx⟩]
  dsimp only
  rw [dx]
  dsimp only
  rw [if_neg (by rw [hv]; decide)]
  have e1 : sunHash env v = .ok (some h) := by
    unfold sunHash
    rw [ha]
    exact hh
  have e2 : otherSig fetch v true = .ok b := by
    unfold otherSig
    rw [if_pos rfl, hl]
    dsimp only
    rw [if_neg hu, hf]
    dsimp only
    rw [if_neg hb]
  rw [e1]
  dsimp only
  rw [e2]
  dsimp only
  have e3 : sunSigExt env b true v.alg (some h) v.loc x.critical = .ok ⟨sunSigOid, false, env.encSig
        ⟨true, b, v.alg, some ⟨o, some env.nullParams⟩, some u⟩⟩ := by
    unfold sunSigExt sunSigVal
    rw [if_neg hb]
    dsimp only
    rw [if_pos rfl]
    dsimp only
    rw [ho, hl, cx]
  rw [e3]
  dsimp only
  obtain ⟨l, h1, h2, h3⟩ := hx.patch (y := ⟨sunSigOid, false, env.encSig
        ⟨true, b, v.alg, some ⟨o, some env.nullParams⟩, some u⟩⟩) rfl
  rw [h1]
  exact ⟨l, rfl, h2⟩

/-- Not checked by conversion: a certificate that carries hashes of a key and a signature (`d`) is converted to Form 1
with any other key and any other signature (`d'`) that the locations serve. -/
theorem C139_fetch_refuted (env : SunEnv S K) (fetch : String → Except PyErr Bytes) (d d' : SunData K)
    (h : d.Valid env) (h' : d'.Valid env) (hs : d'.Served env fetch) (e1 : d'.keyHash = d.keyHash)
    (e2 : d'.sigHash = d.sigHash) (e3 : d'.keyLoc = d.keyLoc) (e4 : d'.sigLoc = d.sigLoc) (e5 : d'.sigAlg = d.sigAlg)
    (c : Cert) (hc : Carries env d c .form4) :
    ∃ l, convert env fetch c .form1 = .ok (withExts c l) ∧ Carries env d' (withExts c l) .form1 := by
  have o1 : d'.keyHashOid = d.keyHashOid := by
    have := h'.keyName
    rw [e1, h.keyName] at this
    exact (Except.ok.inj this).symm
  have o2 : d'.sigHashOid = d.sigHashOid := by
    have := h'.sigName
    rw [e2, h.sigName] at this
    exact (Except.ok.inj this).symm
  obtain ⟨m, h1, h2⟩ := convPub_fetch env fetch c (d.pubExt env false) (d.pubVal env false) [] ⟨d.keyHashOid, none⟩
    d.keyHash d.keyLoc d.keyHashOid (env.spkiOf d'.key) d'.key hc.1 rfl (h.pub false) rfl rfl h.keyOid h.keyName rfl
    (by rw [← e3]; exact hs.key) (procKey_of env d' h')
  have hm : IsFirst m sunSigOid (d.sigExt env false) := h2.first sunOids_ne hc.2
  obtain ⟨l, h3, h4⟩ := convSig_fetch env fetch (withExts c m) (d.sigExt env false) (d.sigVal env false) []
    ⟨d.sigHashOid, some env.nullParams⟩ d.sigHash d.sigLoc d.sigHashOid d'.sig hm rfl (h.sg false) rfl rfl h.sigOid
    h.sigName rfl h.sigLocNe (by rw [← e4]; exact hs.sig) h'.sigNe
  refine ⟨l, ?_, ?_, ?_⟩
  · unfold convert
    rw [show SunForm.form1.pub = true from rfl, h1]
    exact h3
  · have := h4.first sunOids_ne.symm h2.isFirst.2
    rw [withExts_exts]
    unfold SunData.pubExt SunData.pubVal
    rw [o1, e3]
    exact this
  · rw [withExts_exts]
    unfold SunData.sigExt SunData.sigVal
    rw [o2, e4, e5]
    exact h4.isFirst.2

/-- Needed though nothing is fetched: a certificate that contains its key without a location is not converted to a form
that contains the hash of the key. -/
theorem C139_location_refuted (env : SunEnv S K) (fetch : String → Except PyErr Bytes) (c : Cert) (x : Ext)
    (p : SunVal × Bytes) (f : SunForm) (hf : f.pub = false) (hx : IsFirst c.tbs.exts sunKeyOid x)
    (dx : env.decPub x.value = some p) (hv : p.1.byVal = true) (hl : p.1.loc = none) :
    ∃ e, convert env fetch c f = .error e := by
  unfold convert convPub
  rw [hf]
  cases hn : nonCrit c.tbs.exts sunKeyOid with
  | error e => exact ⟨e, rfl⟩
  | ok y =>
    have := ((nonCrit_iff _ _ _).1 hn).1
    have := hx.unique this
    subst this
    dsimp only
    rw [dx]
    dsimp only
    rw [if_neg (by rw [hv]; decide)]
    cases hh : sunHash env p.1 with
    | error e => exact ⟨e, rfl⟩
    | ok h =>
      dsimp only
      unfold otherKey
      rw [if_neg (by decide), hl]
      exact ⟨_, rfl⟩

/-- The parameters of the hash algorithm are rewritten by conversion: a certificate in Form 1 whose hash algorithm of
the key has parameters is never converted back to the Form 4 it was made (and signed) from. -/
theorem C139_params_refuted (env : SunEnv S K) (fetch : String → Except PyErr Bytes) (c1 c4 : Cert) (x1 x4 : Ext)
    (v1 v4 : SunVal) (o : Oid) (q : Bytes) (h1 : IsFirst c1.tbs.exts sunKeyOid x1)
    (h4 : IsFirst c4.tbs.exts sunKeyOid x4) (d1 : env.decPub x1.value = some (v1, []))
    (d4 : env.decPub x4.value = some (v4, [])) (b1 : v1.byVal = true) (a4 : v4.hashAlg = some ⟨o, some q⟩)
    (hcodec : ∀ v, env.decPub (env.encPub v) = some (v, [])) :
    convert env fetch c1 .form4 ≠ .ok c4 := by
  intro h
  unfold convert convPub at h
  cases hn : nonCrit c1.tbs.exts sunKeyOid with
  | error e => rw [hn] at h; cases h
  | ok y =>
    have hy := ((nonCrit_iff _ _ _).1 hn).1
    have e1 := h1.unique hy
    subst e1
    rw [hn] at h
    dsimp only at h
    rw [d1] at h
    dsimp only at h
    rw [if_neg (by rw [b1]; decide)] at h
    cases hh : sunHash env v1 with
    | error e => rw [hh] at h; cases h
    | ok hn =>
      rw [hh] at h
      dsimp only at h
      cases hk : otherKey env fetch v1 SunForm.form4.pub with
      | error e => rw [hk] at h; cases h
      | ok k =>
        rw [hk] at h
        dsimp only at h
        cases hp : sunPubExt env k SunForm.form4.pub hn v1.loc x1.critical with
        | error e => rw [hp] at h; cases h
        | ok z =>
          rw [hp] at h
          dsimp only at h
          have hz : ∃ w, z = ⟨sunKeyOid, x1.critical, env.encPub w⟩ ∧ ∀ q', w.hashAlg ≠ some ⟨o, some q'⟩ := by
            unfold sunPubExt at hp
            cases hw : sunPubVal env k SunForm.form4.pub hn v1.loc with
            | error e => rw [hw] at hp; cases hp
            | ok w =>
              rw [hw] at hp
              cases hp
              refine ⟨w, rfl, ?_⟩
              intro q' hq
              unfold sunPubVal at hw
              cases hn with
              | none =>
                dsimp only at hw
                rw [if_neg (by decide)] at hw
                cases hw
              | some n =>
                dsimp only at hw
                rw [if_neg (by decide)] at hw
                cases hd : env.digest n (env.spkiOf k) with
                | error e => rw [hd] at hw; cases hw
                | ok dg =>
                  rw [hd] at hw
                  dsimp only at hw
                  cases ho : env.hashOid n with
                  | error e => rw [ho] at hw; cases hw
                  | ok oo =>
                    rw [ho] at hw
                    cases hw
                    cases hq
          obtain ⟨w, rfl, hw⟩ := hz
          obtain ⟨m, p1, p2, p3⟩ := h1.patch (y := ⟨sunKeyOid, x1.critical, env.encPub w⟩) rfl
          rw [p1] at h
          dsimp only at h
          have hc4 : IsFirst c4.tbs.exts sunKeyOid ⟨sunKeyOid, x1.critical, env.encPub w⟩ := by
            unfold convSig at h
            cases hn2 : nonCrit (withExts c1 m).tbs.exts sunSigOid with
            | error e => rw [hn2] at h; cases h
            | ok y2 =>
              rw [hn2] at h
              dsimp only at h
              cases hd2 : env.decSig y2.value with
              | none => rw [hd2] at h; cases h
              | some pr =>
                obtain ⟨v2, r2⟩ := pr
                rw [hd2] at h
                dsimp only at h
                by_cases hb : SunForm.form4.sig = v2.byVal
                · rw [if_pos hb] at h
                  cases h
                  exact p3
                · rw [if_neg hb] at h
                  cases hh2 : sunHash env v2 with
                  | error e => rw [hh2] at h; cases h
                  | ok hx2 =>
                    rw [hh2] at h
                    dsimp only at h
                    cases hs2 : otherSig fetch v2 SunForm.form4.sig with
                    | error e => rw [hs2] at h; cases h
                    | ok s2 =>
                      rw [hs2] at h
                      dsimp only at h
                      cases hp2 : sunSigExt env s2 SunForm.form4.sig v2.alg hx2 v2.loc y2.critical with
                      | error e => rw [hp2] at h; cases h
                      | ok z2 =>
                        rw [hp2] at h
                        dsimp only at h
                        cases hq2 : patchExt (withExts c1 m).tbs.exts z2 with
                        | error e => rw [hq2] at h; cases h
                        | ok l2 =>
                          rw [hq2] at h
                          cases h
                          obtain ⟨x2, hr⟩ := patchExt_some _ _ _ hq2
                          have ho2 : z2.oid = sunSigOid := by
                            unfold sunSigExt at hp2
                            cases hw2 : sunSigVal env s2 SunForm.form4.sig v2.alg hx2 v2.loc with
                            | error e => rw [hw2] at hp2; cases hp2
                            | ok w2 =>
                              rw [hw2] at hp2
                              cases hp2
                              rfl
                          rw [ho2] at hr
                          exact hr.first sunOids_ne.symm p3
          have := h4.unique hc4
          subst this
          rw [hcodec w] at d4
          cases d4
          exact hw q a4

/-- A certificate found for a Form 4 certificate is one of the given ones, contains its signature by value, and its
Form 4 is that certificate. -/
theorem C139_contains (env : SunEnv S K) (fetch : String → Except PyErr Bytes) (c4 c : Cert) (certs : List Cert)
    (h : containsByVal env fetch c4 certs = .ok c) :
    c ∈ certs ∧ convert env fetch c .form4 = .ok c4 ∧
      ∃ x ∈ c.tbs.exts, x.oid = sunSigOid ∧ ∃ p, env.decSig x.value = some p ∧ p.1.byVal = true := by
  unfold containsByVal at h
  cases hf : firstByVal env certs with
  | error e => rw [hf] at h; cases h
  | ok o =>
    cases o with
    | none => rw [hf] at h; cases h
    | some c' =>
      rw [hf] at h
      dsimp only at h
      cases hc : convert env fetch c' .form4 with
      | error e => rw [hc] at h; cases h
      | ok d =>
        rw [hc] at h
        dsimp only at h
        by_cases he : c4 = d
        · rw [if_pos he] at h
          cases h
          subst he
          refine ⟨?_, hc, ?_⟩
          · clear hc
            induction certs with
            | nil => cases hf
            | cons a l ih =>
              unfold firstByVal at hf
              cases hs : sigByVal env a.tbs.exts with
              | error e => rw [hs] at hf; cases hf
              | ok b =>
                rw [hs] at hf
                cases b with
                | true => cases hf; exact List.mem_cons_self
                | false => exact List.mem_cons_of_mem _ (ih hf)
          · have hb : sigByVal env c.tbs.exts = .ok true := by
              clear hc
              induction certs with
              | nil => cases hf
              | cons a l ih =>
                unfold firstByVal at hf
                cases hs : sigByVal env a.tbs.exts with
                | error e => rw [hs] at hf; cases hf
                | ok b =>
                  rw [hs] at hf
                  cases b with
                  | true => cases hf; exact hs
                  | false => exact ih hf
            clear hc hf
            generalize c.tbs.exts = l at hb
            induction l with
            | nil => cases hb
            | cons x l ih =>
              unfold sigByVal at hb
              by_cases hx : x.oid = sunSigOid
              · rw [if_pos hx] at hb
                cases hd : env.decSig x.value with
                | none => rw [hd] at hb; cases hb
                | some p =>
                  obtain ⟨v, r⟩ := p
                  rw [hd] at hb
                  dsimp only at hb
                  by_cases hv : v.byVal = true
                  · exact ⟨x, List.mem_cons_self, hx, (v, r), hd, hv⟩
                  · rw [if_neg hv] at hb
                    obtain ⟨y, hy, hr⟩ := ih hb
                    exact ⟨y, List.mem_cons_of_mem _ hy, hr⟩
              · rw [if_neg hx] at hb
                obtain ⟨y, hy, hr⟩ := ih hb
                exact ⟨y, List.mem_cons_of_mem _ hy, hr⟩
        · rw [if_neg he] at h
          cases h

/-- Only the first certificate that contains its signature is looked at: if it is another one, the certificate is not
found although it follows. -/
theorem C139_contains_refuted (env : SunEnv S K) (fetch : String → Except PyErr Bytes) (d : SunData K)
    (h : d.Valid env) (other c4 : Cert) (rest : List Cert) (f : SunForm) (hf : f.sig = true)
    (hc : Carries env d other f) (hne : convert env fetch other .form4 ≠ .ok c4) :
    ∃ e, containsByVal env fetch c4 (other :: rest) = .error e := by
  have hs : sigByVal env other.tbs.exts = .ok true := by
    obtain ⟨a, b, e, ho, ha⟩ := hc.2
    rw [e]
    clear e
    induction a with
    | nil =>
      rw [List.nil_append]
      unfold sigByVal
      rw [if_pos ho, show (d.sigExt env f.sig).value = env.encSig (d.sigVal env f.sig) from rfl, h.sg]
      dsimp only
      rw [if_pos (show (d.sigVal env f.sig).byVal = true from hf)]
    | cons x l ih =>
      rw [List.cons_append]
      unfold sigByVal
      rw [if_neg (ha x List.mem_cons_self)]
      exact ih (fun y hy => ha y (List.mem_cons_of_mem _ hy))
  unfold containsByVal firstByVal
  rw [hs]
  dsimp only
  cases hv : convert env fetch other .form4 with
  | error e => exact ⟨e, rfl⟩
  | ok c' =>
    dsimp only
    rw [if_neg (fun he => hne (by rw [hv, he]))]
    exact ⟨_, rfl⟩

/-! ## Examples -/

/-- A toy codec for small structures. -/
def toySunEnc (v : SunVal) : Bytes :=
  (if v.byVal then 1 else 0) :: v.value.length.toUInt8 :: (v.value ++
    [(v.alg.oid.headD 0).toUInt8,
      (match v.hashAlg with | none => 0 | some a => (a.oid.headD 0).toUInt8),
      (match v.hashAlg with | some ⟨_, some _⟩ => 1 | _ => 0),
      (match v.loc with | none => 0 | some u => if u = "k" then 1 else if u = "s" then 2 else 3)])

/-- Its inverse. -/
def toySunDec (b : Bytes) : Option (SunVal × Bytes) :=
  match b with
  | x :: n :: r =>
    match r.drop n.toNat with
    | a :: h :: p :: u :: rest =>
      some (⟨x == 1, r.take n.toNat, ⟨[a.toNat], none⟩,
        (if h = 0 then none else some ⟨[h.toNat], if p = 1 then some [5, 0] else none⟩),
        (if u = 0 then none else if u = 1 then some "k" else if u = 2 then some "s" else some "")⟩, rest)
    | _ => none
  | _ => none

/-- Keys and hashes are numbers; `sha512` is the hash of the key type 7. -/
def toySun : SunEnv Nat Nat where
  encTbs t := t.subject ++ t.spki ++ [(t.alg.oid.headD 0).toUInt8] ++ t.exts.flatMap (fun x => x.value)
  encPub := toySunEnc
  decPub := toySunDec
  encSig := toySunEnc
  decSig := toySunDec
  hashOf o := if o = [1] then .ok (some "sha256") else if o = [2] then .ok (some "sha512") else .error .valueError
  hashOid h := if h = "sha256" then .ok [1] else if h = "sha512" then .ok [2] else .error .valueError
  nullParams := [5, 0]
  digest h b := if h = "sha256" then .ok [1, b.sum] else if h = "sha512" then .ok [2, b.sum] else .error .valueError
  spkiOf k := [k.toUInt8]
  decSpki b := match b with | [] => none | x :: r => some ([x], r)
  spkiAlg b := ⟨[(b.headD 0).toNat], none⟩
  loadKey b := match b with | [] => .error .valueError | x :: _ => .ok x.toNat
  isVerifyKey _ := true
  pub s := s
  prepAlg _ h := .ok ⟨[if h = some "sha256" then 11 else 12], none⟩
  sign s h b := .ok [if h = some "sha256" then 11 else 12, s.toUInt8, b.sum]
  verifyAlg k a b s := if s = [(a.oid.headD 0).toUInt8, k.toUInt8, b.sum] then .ok () else .error .invalidSignature
  hybKey b := match b with | [] => .error .valueError | x :: _ => .ok (some ([x.toNat], 20, x.toNat + 30))
  preHash o := if o = [7] then some "sha512" else none
  sha2Name h := h = "sha256" || h = "sha512"
  decAlg b := match b with | [x] => some ⟨[x.toNat], none⟩ | _ => none
  decStr b := match b with | [1] => some "k" | [2] => some "s" | _ => none

/-- A key and a signature. -/
def toySunData : SunData Nat := ⟨37, "sha256", [1], [1, 37], "k", [4, 5, 6], ⟨[9], none⟩, "sha256", [1], [1, 15], "s"⟩

/-- Another key and another signature. -/
def toySunData' : SunData Nat :=
  ⟨38, "sha256", [1], [1, 38], "k", [4, 5, 7], ⟨[9], none⟩, "sha256", [1], [1, 16], "s"⟩

/-- What is served for `d`. -/
def toySunFetch (d : SunData Nat) (u : String) : Except PyErr Bytes :=
  if u = "k" then .ok [d.key.toUInt8] else if u = "s" then .ok d.sig else .error .valueError

/-- A certificate that carries `d`. -/
def toySunCert (d : SunData Nat) (f : SunForm) : Cert :=
  ⟨⟨[], 1, ⟨[11], none⟩, [8], ⟨[], [], none⟩, [7], [20],
    [⟨skiOid, false, [3]⟩, d.pubExt toySun f.pub, d.sigExt toySun f.sig]⟩, ⟨[11], none⟩, [1]⟩

theorem toySunData_valid : toySunData.Valid toySun where
  keyName := rfl
  keyOid := rfl
  keyDig := by decide +kernel
  sigName := rfl
  sigOid := rfl
  sigDig := by decide +kernel
  sigNe := by decide
  keyLocNe := by decide
  sigLocNe := by decide
  spki := rfl
  load := by decide +kernel
  pub := by decide +kernel
  sg := by decide +kernel

theorem toySunData'_valid : toySunData'.Valid toySun where
  keyName := rfl
  keyOid := rfl
  keyDig := by decide +kernel
  sigName := rfl
  sigOid := rfl
  sigDig := by decide +kernel
  sigNe := by decide
  keyLocNe := by decide
  sigLocNe := by decide
  spki := rfl
  load := by decide +kernel
  pub := by decide +kernel
  sg := by decide +kernel

theorem toySun_served (d : SunData Nat) (h1 : d.keyLoc = "k") (h2 : d.sigLoc = "s") :
    d.Served toySun (toySunFetch d) where
  key := by rw [h1]; rfl
  sig := by rw [h2]; rfl

theorem toySunCert_carries (d : SunData Nat) (f : SunForm) : Carries toySun d (toySunCert d f) f := by
  constructor
  · refine ⟨[⟨skiOid, false, [3]⟩], _, rfl, rfl, ?_⟩
    intro x hx
    cases List.mem_singleton.1 hx
    decide
  · refine ⟨[⟨skiOid, false, [3]⟩, d.pubExt toySun f.pub], _, rfl, rfl, ?_⟩
    intro x hx
    rcases List.mem_cons.1 hx with rfl | hx
    · decide
    · cases List.mem_singleton.1 hx
      exact sunOids_ne

example : convert toySun (toySunFetch toySunData) (toySunCert toySunData .form4) .form1 =
    .ok (toySunCert toySunData .form1) := by decide +kernel

example : ∃ c', convert toySun (toySunFetch toySunData) (toySunCert toySunData .form2) .form3 = .ok c' ∧
    convert toySun (toySunFetch toySunData) c' .form2 = .ok (toySunCert toySunData .form2) ∧
    convert toySun (toySunFetch toySunData) c' .form1 =
      convert toySun (toySunFetch toySunData) (toySunCert toySunData .form2) .form1 := by
  obtain ⟨m, l, h, -, -, -⟩ := C139_convert toySun (toySunFetch toySunData) toySunData toySunData_valid
    (toySun_served _ rfl rfl) _ _ .form3 (toySunCert_carries toySunData .form2)
  exact ⟨_, h, C139_round_trip _ _ _ toySunData_valid (toySun_served _ rfl rfl) _ _ _ _
    (toySunCert_carries toySunData .form2) h, C139_compose _ _ _ toySunData_valid (toySun_served _ rfl rfl) _ _ _ _ _
    (toySunCert_carries toySunData .form2) h⟩

example : sunForm toySun (toySunCert toySunData .form3) = .ok .form3 := by decide +kernel

example : convert toySun (fun _ => .error .valueError) (toySunCert toySunData .form2) .form2 =
    .ok (toySunCert toySunData .form2) := by
  have h := toySunCert_carries toySunData .form2
  exact C139_same _ _ _ _ _ _ _ _ h.1 h.2 rfl rfl (toySunData_valid.pub true) (toySunData_valid.sg false) rfl rfl

/-- The witness: the hash in the certificate is that of another key. -/
example : (∃ l, convert toySun (toySunFetch toySunData') (toySunCert toySunData .form4) .form1 =
      .ok (withExts (toySunCert toySunData .form4) l) ∧
      Carries toySun toySunData' (withExts (toySunCert toySunData .form4) l) .form1) ∧
    toySunData'.keyDigest ≠ toySunData.keyDigest ∧ toySunData'.sigDigest ≠ toySunData.sigDigest :=
  ⟨C139_fetch_refuted _ _ _ _ toySunData_valid toySunData'_valid (toySun_served _ rfl rfl) rfl rfl rfl rfl rfl _
    (toySunCert_carries toySunData .form4), by decide, by decide⟩

example : convert toySun (toySunFetch toySunData) (withExts (toySunCert toySunData .form1)
    [⟨sunKeyOid, false, toySunEnc ⟨true, [37], ⟨[37], none⟩, some ⟨[1], none⟩, none⟩⟩,
      toySunData.sigExt toySun true]) .form4 = .error .valueError := by decide +kernel

example : ∃ c, convert toySun (toySunFetch toySunData) (withExts (toySunCert toySunData .form1)
    [⟨sunKeyOid, false, toySunEnc ⟨true, [37], ⟨[37], none⟩, some ⟨[1], some [5, 0]⟩, some "k"⟩⟩,
      toySunData.sigExt toySun true]) .form4 = .ok c ∧
    c.tbs.exts ≠ [⟨sunKeyOid, false, toySunEnc ⟨false, [1, 37], ⟨[37], none⟩, some ⟨[1], some [5, 0]⟩, some "k"⟩⟩,
      toySunData.sigExt toySun false] := by
  refine ⟨withExts (toySunCert toySunData .form1) [toySunData.pubExt toySun false, toySunData.sigExt toySun false],
    ?_, ?_⟩ <;> decide +kernel

example : containsByVal toySun (toySunFetch toySunData) (toySunCert toySunData .form4)
    [toySunCert toySunData .form2, toySunCert toySunData .form1] = .ok (toySunCert toySunData .form1) := by
  decide +kernel

example : containsByVal toySun (toySunFetch toySunData) (toySunCert toySunData .form4)
    [toySunCert toySunData' .form1, toySunCert toySunData .form1] = .error .valueError := by
  decide +kernel

end Verif.Hybrid
