import Verif.Prot.KemRefuted

/-!
# C145: protection with a DH-based MAC
-/

namespace Verif.Prot

open Verif.CA

variable {S K C : Type}

/-! ## Specification -/

/-- The one-way functions that the code knows. -/
def owfSpec : List (Oid × String) :=
  [([1, 3, 14, 3, 2, 26], "sha1"), ([2, 16, 840, 1, 101, 3, 4, 2, 4], "sha224"),
   ([2, 16, 840, 1, 101, 3, 4, 2, 1], "sha256"), ([2, 16, 840, 1, 101, 3, 4, 2, 2], "sha384"),
   ([2, 16, 840, 1, 101, 3, 4, 2, 3], "sha512")]

/-- The parameters, as a structure or encoded. -/
inductive HasDhbm (env : MacEnv) : Par → Dhbm → Prop
  | obj (p : Dhbm) : HasDhbm env (.dhbm p) p
  | der {b : Bytes} {p : Dhbm} : env.decDhbm b = some (p, []) → HasDhbm env (.raw b) p

/-- The nonce of AES-GMAC inside them. -/
inductive HasIv (env : MacEnv) : MacPar → Bytes → Prop
  | obj (n : Bytes) : HasIv env (.gcm n) n
  | der {b n r : Bytes} : env.decGcm b = some (n, r) → HasIv env (.raw b) n

/-- RFC 9810, 5.1.3.2: from a base key, a key of `len` bytes; `BASEKEY || OWF("1" || BASEKEY) || ...`. -/
def expandSpec (env : MacEnv) (h : String) (base : Bytes) (len : Nat) : Bytes :=
  ((base :: (List.range' 1 len).map (fun i => env.H h (asciiNat i ++ base))).flatten).take len

/-- `DhMacOf env base p data v`: the MAC of `data` for the base key `base h` of the one-way function `h`. -/
inductive DhMacOf (env : MacEnv) (base : String → Bytes) : Dhbm → Bytes → Bytes → Prop
  | hmac {p : Dhbm} {h mh : String} (data : Bytes) : (p.owf, h) ∈ owfSpec → (p.mac, mh) ∈ hmacSpec →
      DhMacOf env base p data (env.hmac mh (base h) data)
  | gmac {p : Dhbm} {h : String} {len : Nat} {n data v : Bytes} : (p.owf, h) ∈ owfSpec →
      (p.mac, len) ∈ [([2, 16, 840, 1, 101, 3, 4, 1, 9], 16), ([2, 16, 840, 1, 101, 3, 4, 1, 29], 24),
        ([2, 16, 840, 1, 101, 3, 4, 1, 49], 32)] → HasIv env p.macPar n →
      env.gmac (expandSpec env h (base h) len) n data = .ok v → DhMacOf env base p data v
  | kmac128 {p : Dhbm} {h : String} {data v : Bytes} : (p.owf, h) ∈ owfSpec →
      p.mac = [2, 16, 840, 1, 101, 3, 4, 2, 19] → p.macPar = .absent →
      env.kmac false (expandSpec env h (base h) 32) data = .ok v → DhMacOf env base p data v
  | kmac256 {p : Dhbm} {h : String} {data v : Bytes} : (p.owf, h) ∈ owfSpec →
      p.mac = [2, 16, 840, 1, 101, 3, 4, 2, 20] → p.macPar = .absent →
      env.kmac true (expandSpec env h (base h) 32) data = .ok v → DhMacOf env base p data v

/-! ## Lemmas -/

theorem getDhbm_iff (env : MacEnv) (par : Par) (p : Dhbm) : getDhbm env par = .ok p ↔ HasDhbm env par p := by
  constructor
  · intro h
    unfold getDhbm at h
    split at h
    · cases h; exact .obj _
    · rename_i b
      cases hd : env.decDhbm b with
      | none => rw [hd] at h; cases h
      | some x =>
        obtain ⟨q, r⟩ := x
        rw [hd] at h
        dsimp only at h
        by_cases hr : r = []
        · subst hr
          simp only [ne_eq, not_true_eq_false, if_false] at h
          cases h
          exact .der hd
        · rw [if_pos hr] at h; cases h
    · cases h
  · intro h
    cases h with
    | obj => rfl
    | der hd =>
      unfold getDhbm
      dsimp only
      rw [hd]
      simp

theorem getIv_iff (env : MacEnv) (par : MacPar) (n : Bytes) : getNonce env par = .ok n ↔ HasIv env par n := by
  constructor
  · intro h
    unfold getNonce at h
    split at h
    · cases h; exact .obj _
    · rename_i b
      cases hd : env.decGcm b with
      | none => rw [hd] at h; cases h
      | some x =>
        obtain ⟨q, r⟩ := x
        rw [hd] at h
        cases h
        exact .der hd
    · cases h
  · intro h
    cases h with
    | obj => rfl
    | der hd =>
      unfold getNonce
      dsimp only
      rw [hd]

theorem owf_rows : (∀ x ∈ shaNames, x ∈ owfSpec) ∧
    (∀ y ∈ owfSpec, look shaNames y.1 = some y.2 ∧ (hashInst y.2).toOption = some y.2) := by
  decide +kernel

theorem dhLoop_eq (env : MacEnv) (h : String) (base : Bytes) (hi : hashInst h = .ok h) : ∀ (n i : Nat) (acc : Bytes),
    dhLoop env h base n i acc = .ok (acc ++ ((List.range' i n).map (fun j => env.H h (asciiNat j ++ base))).flatten)
  | 0, i, acc => by simp [dhLoop]
  | n + 1, i, acc => by
    unfold dhLoop
    have : hashOf env h (asciiNat i ++ base) = .ok (env.H h (asciiNat i ++ base)) := by
      unfold hashOf
      rw [hi]
    rw [this]
    dsimp only
    rw [dhLoop_eq env h base hi n (i + 1)]
    rw [List.range'_succ]
    simp

theorem flatten_len (l : List Bytes) (n : Nat) (h : ∀ x ∈ l, n ≤ x.length) : n * l.length ≤ l.flatten.length := by
  induction l with
  | nil => simp
  | cons x l ih =>
    have h1 := h x List.mem_cons_self
    have h2 := ih (fun y hy => h y (List.mem_cons_of_mem _ hy))
    simp only [List.length_cons, List.flatten_cons, List.length_append]
    rw [Nat.mul_add, Nat.mul_one]
    omega

/-- The rounds that the code makes are enough if the hash function gives at least as many bytes as the base key has. -/
theorem dhKey_eq (env : MacEnv) (h : String) (base : Bytes) (len : Nat) (hi : hashInst h = .ok h) (hb : base ≠ [])
    (hl : ∀ x, min base.length len ≤ (env.H h x).length) : dhKey env base len h = .ok (expandSpec env h base len) := by
  unfold dhKey
  have hpos : 0 < base.length := List.length_pos_iff.2 hb
  by_cases hle : len ≤ base.length
  · rw [if_pos hle]
    unfold expandSpec
    rw [List.flatten_cons, List.take_append_of_le_length hle]
  · rw [if_neg hle, if_neg hb, dhLoop_eq env h base hi]
    dsimp only
    unfold expandSpec
    have hq : (len + base.length - 1) / base.length - 1 ≤ len := by
      have := Nat.div_le_self (len + base.length - 1) base.length
      have h2 : (len + base.length - 1) / base.length ≤ len := by
        rw [Nat.div_le_iff_le_mul_add_pred hpos]
        have : len ≤ base.length * len := Nat.le_mul_of_pos_left _ hpos
        omega
      omega
    have hsplit : List.range' 1 len = List.range' 1 ((len + base.length - 1) / base.length - 1) ++
        List.range' (1 + ((len + base.length - 1) / base.length - 1))
          (len - ((len + base.length - 1) / base.length - 1)) := by
      have hr := List.range'_append (s := 1) (m := (len + base.length - 1) / base.length - 1)
        (n := len - ((len + base.length - 1) / base.length - 1)) (step := 1)
      rw [Nat.one_mul, Nat.add_sub_cancel' hq] at hr
      exact hr.symm
    rw [List.flatten_cons, hsplit, List.map_append, List.flatten_append, ← List.append_assoc]
    refine congrArg Except.ok (List.take_append_of_le_length ?_).symm
    rw [List.length_append]
    have hmul : len ≤ base.length + base.length * ((len + base.length - 1) / base.length - 1) := by
      have h1 := Nat.div_add_mod (len + base.length - 1) base.length
      have h2 := Nat.mod_lt (len + base.length - 1) hpos
      have h3 : 1 ≤ (len + base.length - 1) / base.length := (Nat.one_le_div_iff hpos).2 (by omega)
      rw [Nat.mul_sub, Nat.mul_one]
      have h4 : base.length ≤ base.length * ((len + base.length - 1) / base.length) := Nat.le_mul_of_pos_right _ h3
      omega
    have hf := flatten_len ((List.range' 1 ((len + base.length - 1) / base.length - 1)).map
      (fun j => env.H h (asciiNat j ++ base))) base.length (by
        intro x hx
        obtain ⟨j, _, rfl⟩ := List.mem_map.1 hx
        have := hl (asciiNat j ++ base)
        omega)
    rw [List.length_map, List.length_range'] at hf
    omega

theorem gmac_len : ∀ x ∈ [(([2, 16, 840, 1, 101, 3, 4, 1, 9] : Oid), 16), ([2, 16, 840, 1, 101, 3, 4, 1, 29], 24),
    ([2, 16, 840, 1, 101, 3, 4, 1, 49], 32)], aesLen x.1 = x.2 ∧ (look gmacNames x.1).isSome = true ∧
    look hmacNames x.1 = none := by
  decide +kernel

theorem gmac_len_mem : ∀ o ∈ [([2, 16, 840, 1, 101, 3, 4, 1, 9] : Oid), [2, 16, 840, 1, 101, 3, 4, 1, 29],
    [2, 16, 840, 1, 101, 3, 4, 1, 49]], (o, aesLen o) ∈ [(([2, 16, 840, 1, 101, 3, 4, 1, 9] : Oid), 16),
    ([2, 16, 840, 1, 101, 3, 4, 1, 29], 24), ([2, 16, 840, 1, 101, 3, 4, 1, 49], 32)] := by
  decide +kernel

theorem kmac_rows : look hmacNames kmac128Oid = none ∧ look hmacNames kmac256Oid = none ∧
    (look gmacNames kmac128Oid).isSome = false ∧ (look gmacNames kmac256Oid).isSome = false ∧
    kmac256Oid ≠ kmac128Oid := by
  decide +kernel

/-- The base key that the code uses: the hash of the shared secret for an HMAC, else the shared secret. -/
def codeBase (env : MacEnv) (ss : Bytes) (p : Dhbm) (h : String) : Bytes :=
  if p.mac ∈ hmacSpec.map (·.1) then env.H h ss else ss

theorem dhTail_iff (env : MacEnv) (ss : Bytes) (p : Dhbm) (data v : Bytes) (hss : ss ≠ [])
    (hl : ∀ h x, min ss.length 32 ≤ (env.H h x).length) :
    dhTail env ss p data = .ok v ↔ DhMacOf env (codeBase env ss p) p data v := by
  obtain ⟨t1, t2, t3, t4, t5⟩ := kmac_rows
  have hkey : ∀ h len, len ≤ 32 → (p.owf, h) ∈ owfSpec → dhKey env ss len h = .ok (expandSpec env h ss len) := by
    intro h len hlen hm
    exact dhKey_eq env h ss len (ok_of_toOption (owf_rows.2 _ hm).2) hss (fun x => by have := hl h x; omega)
  constructor
  · intro h
    unfold dhTail at h
    cases hs : look shaNames p.owf with
    | none => rw [hs] at h; cases h
    | some f =>
      rw [hs] at h
      dsimp only at h
      have hm : (p.owf, f) ∈ owfSpec := owf_rows.1 _ (mem_of_look _ _ _ hs)
      have hh : hashOf env f ss = .ok (env.H f ss) := by
        unfold hashOf
        rw [ok_of_toOption (owf_rows.2 _ hm).2]
      rw [hh] at h
      dsimp only at h
      cases hl' : look hmacNames p.mac with
      | some n =>
        rw [hl'] at h
        dsimp only at h
        obtain ⟨y, hy, h1, h2, h3⟩ := hmac_rows _ (mem_of_look _ _ _ hl')
        rw [h2] at h
        unfold hmacOf at h
        dsimp only at h
        rw [h3] at h
        cases h
        have hy' : (p.mac, y.2) ∈ hmacSpec := by
          have : y = (p.mac, y.2) := by rw [show p.mac = y.1 from h1.symm]
          rw [← this]
          exact hy
        have hb : codeBase env ss p f = env.H f ss := if_pos (List.mem_map.2 ⟨_, hy', rfl⟩)
        rw [← hb]
        exact .hmac data hm hy'
      | none =>
        rw [hl'] at h
        dsimp only at h
        have hb : codeBase env ss p f = ss := by
          refine if_neg (fun c => ?_)
          obtain ⟨⟨y1, y2⟩, hy, hy1⟩ := List.mem_map.1 c
          dsimp only at hy1
          subst hy1
          obtain ⟨_, n, h2, _⟩ := hmac_look hy
          rw [h2] at hl'
          cases hl'
        by_cases hg : (look gmacNames p.mac).isSome = true
        · rw [if_pos hg] at h
          have hmem := gmac_len_mem _ ((gmac_mem _).1 hg)
          have hlen : aesLen p.mac ≤ 32 := by
            unfold aesLen
            split
            · omega
            · split <;> omega
          unfold dhGmac at h
          rw [hkey f _ hlen hm] at h
          dsimp only at h
          cases hn : getNonce env p.macPar with
          | error e => rw [hn] at h; cases h
          | ok n =>
            rw [hn] at h
            exact .gmac hm hmem ((getIv_iff _ _ _).1 hn) (by rw [hb]; exact h)
        · rw [if_neg hg] at h
          by_cases hk : p.mac = kmac128Oid ∨ p.mac = kmac256Oid
          · rw [if_pos hk] at h
            unfold dhKmac at h
            rw [hkey f 32 (Nat.le_refl _) hm] at h
            dsimp only at h
            unfold kmacOf at h
            by_cases hp : p.macPar = .absent
            · rw [if_neg (by simp [hp])] at h
              by_cases h1 : p.mac = kmac128Oid
              · rw [if_pos h1] at h
                exact .kmac128 hm h1 hp (by rw [hb]; exact h)
              · rw [if_neg h1] at h
                have h2 := hk.resolve_left h1
                rw [if_pos h2] at h
                exact .kmac256 hm h2 hp (by rw [hb]; exact h)
            · rw [if_pos (by simp [hp])] at h; cases h
          · rw [if_neg hk] at h; cases h
  · intro h
    have hbase : ∀ f, look hmacNames p.mac = none → codeBase env ss p f = ss := by
      intro f hl'
      refine if_neg (fun c => ?_)
      obtain ⟨⟨y1, y2⟩, hy, hy1⟩ := List.mem_map.1 c
      dsimp only at hy1
      subst hy1
      obtain ⟨_, n, h2, _⟩ := hmac_look hy
      rw [h2] at hl'
      cases hl'
    have hstart : ∀ f, (p.owf, f) ∈ owfSpec → look shaNames p.owf = some f ∧ hashOf env f ss = .ok (env.H f ss) := by
      intro f hm
      refine ⟨(owf_rows.2 _ hm).1, ?_⟩
      unfold hashOf
      rw [ok_of_toOption (owf_rows.2 _ hm).2]
    unfold dhTail
    cases h with
    | hmac _ hm hmm =>
      rename_i f mh
      obtain ⟨s1, s2⟩ := hstart f hm
      obtain ⟨h1, n, h2, h3⟩ := hmac_look hmm
      have hb : codeBase env ss p f = env.H f ss := if_pos (List.mem_map.2 ⟨_, hmm, rfl⟩)
      rw [s1]
      dsimp only
      rw [s2]
      dsimp only
      rw [h2]
      dsimp only
      rw [h3]
      unfold hmacOf
      dsimp only
      rw [h1, hb]
    | gmac hm hmem hn hv =>
      rename_i f len n
      obtain ⟨s1, s2⟩ := hstart f hm
      obtain ⟨g1, g2, g3⟩ := gmac_len _ hmem
      rw [hbase f g3] at hv
      rw [s1]
      dsimp only
      rw [s2]
      dsimp only
      rw [show look hmacNames p.mac = none from g3]
      dsimp only
      rw [if_pos g2]
      unfold dhGmac
      rw [show aesLen p.mac = len from g1]
      have hlen : len ≤ 32 := by
        have : ∀ x ∈ [(([2, 16, 840, 1, 101, 3, 4, 1, 9] : Oid), 16), ([2, 16, 840, 1, 101, 3, 4, 1, 29], 24),
          ([2, 16, 840, 1, 101, 3, 4, 1, 49], 32)], x.2 ≤ 32 := by decide +kernel
        exact this _ hmem
      rw [hkey f len hlen hm]
      dsimp only
      rw [(getIv_iff _ _ _).2 hn]
      exact hv
    | kmac128 hm ho hp hv =>
      rename_i f
      obtain ⟨s1, s2⟩ := hstart f hm
      have ho' : p.mac = kmac128Oid := ho
      rw [hbase f (by rw [ho']; exact t1)] at hv
      rw [s1]
      dsimp only
      rw [s2]
      dsimp only
      rw [show look hmacNames p.mac = none by rw [ho']; exact t1]
      dsimp only
      rw [if_neg (by rw [ho', t3]; simp), if_pos (Or.inl ho')]
      unfold dhKmac
      rw [hkey f 32 (Nat.le_refl _) hm]
      dsimp only
      unfold kmacOf
      rw [if_neg (by simp [hp]), if_pos ho']
      exact hv
    | kmac256 hm ho hp hv =>
      rename_i f
      obtain ⟨s1, s2⟩ := hstart f hm
      have ho' : p.mac = kmac256Oid := ho
      rw [hbase f (by rw [ho']; exact t2)] at hv
      rw [s1]
      dsimp only
      rw [s2]
      dsimp only
      rw [show look hmacNames p.mac = none by rw [ho']; exact t2]
      dsimp only
      rw [if_neg (by rw [ho', t4]; simp), if_pos (Or.inr ho')]
      unfold dhKmac
      rw [hkey f 32 (Nat.le_refl _) hm]
      dsimp only
      unfold kmacOf
      rw [if_neg (by simp [hp]), if_neg (by rw [ho']; exact t5), if_pos ho']
      exact hv

/-! ## Verification -/

theorem dh_rows : look hmacNames dhOid = none ∧ dhOid ≠ kmac128Oid ∧ dhOid ≠ kmac256Oid ∧ dhOid ≠ pbmac1Oid ∧
    dhOid ≠ pbmOid ∧ (look gmacNames dhOid).isSome = false ∧ dhOid ≠ kemMacOid := by
  decide +kernel

theorem verify_dh (env : Env S K C) (rnd : Bytes) (m : Msg C) (priv : Option S) (pw : Option Bytes) (pub : Option K)
    (ss : Option Bytes) (lw : Bool) (a : AlgId) (p : Bytes) (ha : m.hdr.alg = some a) (hp : m.prot = some p)
    (ho : a.oid = dhOid) : verifyProt env rnd m priv pw pub ss lw = verifyDh env rnd m priv ss pub := by
  have hne : dhOid ≠ kemMacOid := dh_rows.2.2.2.2.2.2
  have hb : verifyBy env rnd m priv pw pub ss lw a p = verifyDh env rnd m priv ss pub := by
    unfold verifyBy
    rw [ho, if_neg hne, if_pos rfl]
  unfold verifyProt
  rw [hp, ha]
  dsimp only
  rw [hb]
  cases lw with
  | false => rfl
  | true =>
    rw [if_pos rfl]
    have : lwType env a.oid = .ok .dh := by
      unfold lwType protType
      rw [ho, if_neg hne, if_pos rfl]
    rw [this]

theorem symProt_dh (env : MacEnv) (rnd : Bytes) (m : Msg C) (b : Bytes) (lw : Bool) (a : AlgId) (v : Bytes)
    (ha : m.hdr.alg = some a) (ho : a.oid = dhOid) : symProt env rnd m b lw = .ok v ↔
      ∃ data, protectedPart env m = .ok data ∧ dhMacOf env b a.par data = .ok v := by
  obtain ⟨t1, t2, t3, t4, t5, t6, _⟩ := dh_rows
  have : ∀ data, macByAlg env rnd a b data false lw = dhMacOf env b a.par data := by
    intro data
    unfold macByAlg
    rw [ho, t1]
    dsimp only
    rw [if_neg (fun c => c.elim t2 t3), if_neg t4, if_neg t5, if_neg (by rw [t6]; simp), if_pos rfl]
  unfold symProt
  cases hd : protectedPart env m with
  | error e => simp
  | ok d =>
    rw [ha]
    simp [this]

theorem verifyDh_ok (env : Env S K C) (rnd : Bytes) (m : Msg C) (priv : Option S) (ss : Option Bytes) (pub : Option K)
    (v : Bytes) (hp : m.prot = some v) : verifyDh env rnd m priv ss pub = .ok () ↔
      ∃ b, dhSecret env ss priv (pub.map .key) m.certs = .ok b ∧ symProt env.toMacEnv rnd m b false = .ok v := by
  unfold verifyDh
  by_cases hn : ss = none ∧ priv.isNone = true
  · rw [if_pos hn]
    constructor
    · intro h; cases h
    · rintro ⟨b, h1, _⟩
      obtain ⟨rfl, h2⟩ := hn
      cases priv with
      | some s => cases h2
      | none =>
        unfold dhSecret haveSecret dhExchange at h1
        dsimp only at h1
        cases pub <;> cases hm : m.certs <;> simp [hm] at h1
  · rw [if_neg hn]
    cases hs : dhSecret env ss priv (pub.map .key) m.certs with
    | error e => simp
    | ok b =>
      dsimp only
      cases hv : symProt env.toMacEnv rnd m b false with
      | error e =>
        constructor
        · intro h; cases h
        · rintro ⟨b', e1, e2⟩
          cases e1
          rw [hv] at e2
          cases e2
      | ok w =>
        dsimp only
        rw [hp]
        by_cases hw : some v = some w
        · rw [if_pos hw]
          cases hw
          exact ⟨fun _ => ⟨b, rfl, hv⟩, fun _ => rfl⟩
        · rw [if_neg hw]
          constructor
          · intro h; cases h
          · rintro ⟨b', e1, e2⟩
            cases e1
            rw [hv] at e2
            cases e2
            exact absurd rfl hw

/-- C145: with a shared secret, a message with a DH-based MAC is accepted if and only if its protection is the MAC of its
encoded header and body under the key that the code derives: from the hash of the shared secret for an HMAC, but from the
shared secret itself for AES-GMAC and KMAC. -/
theorem C145_iff (env : Env S K C) (rnd : Bytes) (m : Msg C) (priv : Option S) (pw : Option Bytes) (pub : Option K)
    (ss : Bytes) (lw : Bool) (a : AlgId) (v : Bytes) (ha : m.hdr.alg = some a) (hp : m.prot = some v)
    (ho : a.oid = [1, 2, 840, 113533, 7, 66, 30]) (hss : ss ≠ [])
    (hl : ∀ h x, min ss.length 32 ≤ (env.H h x).length) :
    verifyProt env rnd m priv pw pub (some ss) lw = .ok () ↔
      ∃ data p, protectedPart env.toMacEnv m = .ok data ∧ HasDhbm env.toMacEnv a.par p ∧
        DhMacOf env.toMacEnv (codeBase env.toMacEnv ss p) p data v := by
  rw [verify_dh env rnd m priv pw pub (some ss) lw a v ha hp ho, verifyDh_ok env rnd m priv (some ss) pub v hp]
  have hsec : dhSecret env (some ss) priv (pub.map .key) m.certs = .ok ss := by
    unfold dhSecret
    cases ss with
    | nil => exact absurd rfl hss
    | cons x l => rfl
  rw [hsec]
  simp only [Except.ok.injEq, exists_eq_left']
  rw [symProt_dh env.toMacEnv rnd m ss false a v ha ho]
  constructor
  · rintro ⟨data, h1, h2⟩
    unfold dhMacOf at h2
    cases hg : getDhbm env.toMacEnv a.par with
    | error e => rw [hg] at h2; cases h2
    | ok p =>
      rw [hg] at h2
      exact ⟨data, p, h1, (getDhbm_iff _ _ _).1 hg, (dhTail_iff env.toMacEnv ss p data v hss hl).1 h2⟩
  · rintro ⟨data, p, h1, h2, h3⟩
    refine ⟨data, h1, ?_⟩
    unfold dhMacOf
    rw [(getDhbm_iff _ _ _).2 h2]
    exact (dhTail_iff env.toMacEnv ss p data v hss hl).2 h3

/-- C145: for an HMAC this is the MAC of the specification (RFC 9810, 5.1.3.2), whose base key is the hash of the shared
secret. -/
theorem C145_hmac_partial (env : Env S K C) (rnd : Bytes) (m : Msg C) (priv : Option S) (pw : Option Bytes)
    (pub : Option K) (ss : Bytes) (lw : Bool) (a : AlgId) (v : Bytes) (p : Dhbm) (ha : m.hdr.alg = some a)
    (hp : m.prot = some v) (ho : a.oid = [1, 2, 840, 113533, 7, 66, 30]) (hss : ss ≠ [])
    (hl : ∀ h x, min ss.length 32 ≤ (env.H h x).length) (hpar : HasDhbm env.toMacEnv a.par p)
    (hh : p.mac ∈ hmacSpec.map (·.1)) :
    verifyProt env rnd m priv pw pub (some ss) lw = .ok () ↔
      ∃ data, protectedPart env.toMacEnv m = .ok data ∧
        DhMacOf env.toMacEnv (fun h => env.H h ss) p data v := by
  rw [C145_iff env rnd m priv pw pub ss lw a v ha hp ho hss hl]
  have hb : codeBase env.toMacEnv ss p = fun h => env.H h ss := by
    funext h
    exact if_pos hh
  constructor
  · rintro ⟨data, p', h1, h2, h3⟩
    have : p' = p := by
      have := (getDhbm_iff _ _ _).2 h2
      rw [(getDhbm_iff _ _ _).2 hpar] at this
      exact (Except.ok.inj this).symm
    subst this
    rw [hb] at h3
    exact ⟨data, h1, h3⟩
  · rintro ⟨data, h1, h2⟩
    exact ⟨data, p, h1, hpar, by rw [hb]; exact h2⟩

/-- C145: without a shared secret nothing is accepted unless a private key for ECDH and a public key, or a certificate in
the message, are there; the public key counts before the certificate. -/
theorem C145_exchange (env : Env S K C) (rnd : Bytes) (m : Msg C) (priv : Option S) (pw : Option Bytes)
    (pub : Option K) (lw : Bool) (a : AlgId) (ha : m.hdr.alg = some a)
    (ho : a.oid = [1, 2, 840, 113533, 7, 66, 30]) (h : verifyProt env rnd m priv pw pub none lw = .ok ()) :
    ∃ s k ss, priv = some s ∧ env.isEcdh s = true ∧ env.isEcdhPub k = true ∧
      (pub = some k ∨ (pub = none ∧ ∃ c rest, m.certs = c :: rest ∧ env.keyOf c = .ok k)) ∧
      env.ecdh s k = .ok ss ∧ symProt env.toMacEnv rnd m ss false = m.prot.elim (.error .pyasn1Error) .ok := by
  cases hp : m.prot with
  | none =>
    unfold verifyProt at h
    rw [hp] at h
    cases h
  | some v =>
    rw [verify_dh env rnd m priv pw pub none lw a v ha hp ho, verifyDh_ok env rnd m priv none pub v hp] at h
    obtain ⟨b, h1, h2⟩ := h
    unfold dhSecret haveSecret at h1
    dsimp only at h1
    unfold dhExchange at h1
    cases pub with
    | none =>
      cases hc : m.certs with
      | nil => rw [hc] at h1; cases h1
      | cons c rest =>
        rw [hc] at h1
        cases priv with
        | none => cases h1
        | some s =>
          dsimp only [Option.map_none] at h1
          by_cases he : env.isEcdh s = true
          · rw [if_pos he] at h1
            unfold dhPeer firstKey at h1
            dsimp only at h1
            cases hk : env.keyOf c with
            | error e => rw [hk] at h1; cases h1
            | ok k =>
              rw [hk] at h1
              dsimp only at h1
              by_cases hek : env.isEcdhPub k = true
              · rw [if_pos hek] at h1
                exact ⟨s, k, b, rfl, he, hek, Or.inr ⟨rfl, c, rest, rfl, hk⟩, h1, h2⟩
              · rw [if_neg hek] at h1; cases h1
          · rw [if_neg he] at h1; cases h1
    | some k =>
      cases priv with
      | none => cases h1
      | some s =>
        dsimp only [Option.map_some] at h1
        by_cases he : env.isEcdh s = true
        · rw [if_pos he] at h1
          unfold dhPeer peerKey at h1
          dsimp only at h1
          by_cases hek : env.isEcdhPub k = true
          · rw [if_pos hek] at h1
            exact ⟨s, k, b, rfl, he, hek, Or.inl rfl, h1, h2⟩
          · rw [if_neg hek] at h1; cases h1
        · rw [if_neg he] at h1; cases h1

/-! ## Round trip -/

/-- The codec gives back the parameters; the nonce inside becomes bytes. -/
def DhOk (env : MacEnv) (p : Dhbm) : Prop :=
  ∃ mp, env.decDhbm (env.encDhbm p) = some ({ p with macPar := mp }, []) ∧
    match p.macPar with
    | .gcm n => ∃ b, mp = .raw b ∧ env.decGcm b = some (n, [])
    | x => mp = x

theorem dhMac_sent (env : MacEnv) (p : Dhbm) (ss data v : Bytes) (hc : DhOk env p)
    (h : dhMacOf env ss (.dhbm p) data = .ok v) : dhMacOf env ss (.raw (env.encDhbm p)) data = .ok v := by
  obtain ⟨mp, h1, h2⟩ := hc
  unfold dhMacOf at h ⊢
  have e1 : getDhbm env (.raw (env.encDhbm p)) = .ok { p with macPar := mp } := by
    unfold getDhbm
    dsimp only
    rw [h1]
    simp
  have e2 : getDhbm env (.dhbm p) = .ok p := rfl
  rw [e1]
  rw [e2] at h
  dsimp only at h ⊢
  cases hm : p.macPar with
  | gcm n =>
    rw [hm] at h2
    obtain ⟨b, rfl, hb⟩ := h2
    have e3 : getNonce env (.raw b) = getNonce env p.macPar := by
      rw [hm]
      unfold getNonce
      dsimp only
      rw [hb]
    unfold dhTail dhGmac dhKmac at h ⊢
    dsimp only
    rw [e3]
    rw [hm] at h ⊢
    exact h
  | absent =>
    rw [hm] at h2
    dsimp only at h2
    subst h2
    have : { p with macPar := .absent } = p := by rw [← hm]
    rw [this]
    exact h
  | raw b =>
    rw [hm] at h2
    dsimp only at h2
    subst h2
    have : { p with macPar := .raw b } = p := by rw [← hm]
    rw [this]
    exact h

/-- C145: a message protected with a DH-based MAC is accepted, after transport, by everybody with the same shared secret,
given or from ECDH; with `bad_message_check` it is refused. -/
theorem C145_roundtrip [DecidableEq C] (env : Env S K C) (a : PArgs S K C) (m m' : Msg C)
    (hk : protKind a.name = .ok .dh) (h : protect env a m = .ok m') :
    ∃ ss p, dhSecret env a.ss a.priv a.peer [] = .ok ss ∧ m'.hdr.alg = some ⟨dhOid, .dhbm p⟩ ∧
      ∀ rnd' priv' pw' pub' ss' lw, DhOk env.toMacEnv p →
        dhSecret env ss' priv' (pub'.map .key) m'.certs = .ok ss → (ss' = none → priv' ≠ none) →
        verifyProt env rnd' (transport env.toMacEnv m') priv' pw' pub' ss' lw =
          if a.bad then .error .badMessageCheck else .ok () := by
  obtain ⟨c, alg, v, v', _, hp, hhdr, hbody, hv, hbadv, hprot, _⟩ := protect_shape env a m m' h
  have halg : m'.hdr.alg = some alg := by rw [hhdr]
  have hshape : ∃ q, alg = ⟨dhOid, .dhbm q⟩ := by
    unfold prepAlg at hp
    rw [hk] at hp
    obtain ⟨q, _, e⟩ := map_ok hp
    exact ⟨q, e.symm⟩
  obtain ⟨p, rfl⟩ := hshape
  unfold protValue at hv
  by_cases hsd : m'.hdr.sender = false
  · rw [if_pos hsd] at hv; cases hv
  · rw [if_neg hsd, if_pos rfl] at hv
    cases hs : dhSecret env a.ss a.priv a.peer [] with
    | error e => rw [hs] at hv; cases hv
    | ok ss =>
      rw [hs] at hv
      dsimp only at hv
      refine ⟨ss, p, rfl, halg, ?_⟩
      intro rnd' priv' pw' pub' ss' lw hc hs' hsome
      obtain ⟨data, h1, h2⟩ := (symProt_dh env.toMacEnv a.rnd m' ss false _ v halg rfl).1 hv
      have hta := transport_alg env.toMacEnv m' _ halg
      have hval : symProt env.toMacEnv rnd' (transport env.toMacEnv m') ss false = .ok v :=
        (symProt_dh env.toMacEnv rnd' _ ss false _ v hta rfl).2
          ⟨data, by rw [transport_part]; exact h1, dhMac_sent env.toMacEnv p ss data v hc h2⟩
      rw [verify_dh env rnd' _ priv' pw' pub' ss' lw _ v' hta hprot rfl]
      unfold verifyDh
      have hn : ¬ (ss' = none ∧ priv'.isNone = true) := by
        rintro ⟨e1, e2⟩
        exact hsome e1 (Option.isNone_iff_eq_none.1 e2)
      rw [if_neg hn, show (transport env.toMacEnv m').certs = m'.certs from rfl, hs']
      dsimp only
      rw [hval]
      dsimp only
      rw [show (transport env.toMacEnv m').prot = some v' from hprot]
      cases hb : a.bad with
      | false =>
        rw [hb] at hbadv
        cases hbadv
        rw [if_pos rfl, if_neg (by simp)]
      | true =>
        rw [hb] at hbadv
        rw [if_neg (fun c => manip_ne _ _ hbadv (Option.some.inj c)), if_pos rfl]

/-! ## Differences and examples -/

/-- Key 0 and key 1 exchange a secret. The parameters are encoded by the number of the MAC. -/
def exDh : Env Nat Nat Nat :=
  { exSig with
    toMacEnv := { exMac with
      H := fun n b => UInt8.ofNat n.toList.length :: (b ++ List.replicate 40 9)
      encDhbm := fun p => [UInt8.ofNat (p.mac.getLastD 0)]
      decDhbm := fun b =>
        if b = [9] then some (⟨[1, 3, 14, 3, 2, 26], some [5, 0], [1, 2, 840, 113549, 2, 9], .absent⟩, []) else none }
    isEcdh := fun _ => true
    isEcdhPub := fun _ => true
    ecdh := fun s k => .ok [UInt8.ofNat (s * k), 7] }

/-- Arguments for a DH-based MAC with the private key `s` and the public key `k` of the other side. -/
def exDhArgs (s k : Nat) (hash mac : Option String) : PArgs Nat Nat Nat :=
  ⟨"dh", none, some s, none, some s, false, false, true, ⟨hash, none, none, none, mac⟩, none, none, none,
    some (.key k), [9, 9]⟩

/-- C145_roundtrip: key 2 protects for key 3. -/
example : verifyProt exDh [] (transport exDh.toMacEnv
    ((protect exDh (exDhArgs 2 3 none (some "hmac-sha256")) exSigPlain).toOption.getD exSigPlain)) (some 3) none (some 2)
    none false = .ok () := by
  decide +kernel

/-- C145_exchange with the certificate in the message; another key is refused. -/
example : verifyProt exDh [] (transport exDh.toMacEnv
    ((protect exDh (exDhArgs 2 3 none (some "hmac-sha256")) exSigPlain).toOption.getD exSigPlain)) (some 3) none none
    none false = .ok () ∧
    verifyProt exDh [] (transport exDh.toMacEnv
    ((protect exDh (exDhArgs 2 3 none (some "hmac-sha256")) exSigPlain).toOption.getD exSigPlain)) (some 4) none none
    none false = .error .badMessageCheck := by
  decide +kernel

/-- C145_hmac_partial: the MAC of the specification. -/
example : verifyProt exDh [] (⟨⟨[10], true, some ⟨dhOid, .raw [9]⟩, some [11], []⟩, some [12],
    some (6 :: (exDh.H "sha1" [4, 4] ++ [10, 9, 11, 12])), []⟩ : Msg Nat) none none none (some [4, 4]) false = .ok () :=
  (C145_hmac_partial exDh [] _ none none none [4, 4] false ⟨dhOid, .raw [9]⟩ _
    ⟨[1, 3, 14, 3, 2, 26], some [5, 0], [1, 2, 840, 113549, 2, 9], .absent⟩ rfl rfl rfl (by decide)
    (by intro h x; simp [exDh]) (.der (by decide +kernel)) (by decide +kernel)).2
    ⟨[10, 9, 11, 12], by decide +kernel, .hmac (h := "sha1") (mh := "sha256") _ (by decide +kernel) (by decide +kernel)⟩

/-- For AES-GMAC the key is not that of the specification: the code derives it from the shared secret, not from its hash.
The MAC of the specification is refused. -/
theorem C145_basekey_refuted : ∃ (env : Env Nat Nat Nat) (m : Msg Nat) (p : Dhbm) (ss data v : Bytes),
    m.hdr.alg = some ⟨dhOid, .dhbm p⟩ ∧ p.mac = [2, 16, 840, 1, 101, 3, 4, 1, 9] ∧ m.prot = some v ∧ ss ≠ [] ∧
    protectedPart env.toMacEnv m = .ok data ∧ DhMacOf env.toMacEnv (fun h => env.H h ss) p data v ∧
    verifyProt env [] m none none none (some ss) false = .error .badMessageCheck := by
  refine ⟨exDh, ⟨⟨[10], true, some ⟨dhOid, .dhbm ⟨[1, 3, 14, 3, 2, 26], some [5, 0], [2, 16, 840, 1, 101, 3, 4, 1, 9],
    .gcm [3]⟩⟩, some [11], []⟩, some [12], some ([4, 4, 4] ++ List.replicate 13 9 ++ [3] ++ [10, 9, 11, 12]), []⟩, _,
    [4, 4], [10, 9, 11, 12], _, rfl, rfl, rfl, by decide, by decide +kernel, ?_, by decide +kernel⟩
  exact .gmac (h := "sha1") (len := 16) (n := [3]) (by decide +kernel) (by decide +kernel) (.obj _) (by decide +kernel)

/-- A one-way function of the SHA-3 family cannot be used: no message with it can be made or verified. -/
theorem C145_sha3_refuted (env : Env S K C) (rnd : Bytes) (m : Msg C) (priv : Option S) (pw : Option Bytes)
    (pub : Option K) (ss : Option Bytes) (lw : Bool) (a : AlgId) (p : Dhbm) (ha : m.hdr.alg = some a)
    (ho : a.oid = [1, 2, 840, 113533, 7, 66, 30]) (hp : HasDhbm env.toMacEnv a.par p)
    (hk : p.owf ∈ [[2, 16, 840, 1, 101, 3, 4, 2, 7], [2, 16, 840, 1, 101, 3, 4, 2, 8],
      [2, 16, 840, 1, 101, 3, 4, 2, 9], [2, 16, 840, 1, 101, 3, 4, 2, 10]]) :
    verifyProt env rnd m priv pw pub ss lw ≠ .ok () := by
  intro h
  cases hpr : m.prot with
  | none =>
    unfold verifyProt at h
    rw [hpr] at h
    cases h
  | some v =>
    rw [verify_dh env rnd m priv pw pub ss lw a v ha hpr ho, verifyDh_ok env rnd m priv ss pub v hpr] at h
    obtain ⟨b, _, h2⟩ := h
    obtain ⟨data, _, h3⟩ := (symProt_dh env.toMacEnv rnd m b false a v ha ho).1 h2
    unfold dhMacOf at h3
    rw [(getDhbm_iff _ _ _).2 hp] at h3
    dsimp only at h3
    unfold dhTail at h3
    have : ∀ o ∈ [([2, 16, 840, 1, 101, 3, 4, 2, 7] : Oid), [2, 16, 840, 1, 101, 3, 4, 2, 8],
      [2, 16, 840, 1, 101, 3, 4, 2, 9], [2, 16, 840, 1, 101, 3, 4, 2, 10]], look shaNames o = none := by decide +kernel
    rw [this _ hk] at h3
    cases h3

example : protect exDh (exDhArgs 2 3 (some "sha3_256") (some "hmac-sha256")) exSigPlain = .error .keyError := by
  decide +kernel

end Verif.Prot
