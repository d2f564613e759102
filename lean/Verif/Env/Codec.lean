import Verif.Env.Build

/-!
# A toy encoding

The examples need encodings that can be decoded for all values. This file defines one, which is not DER, and an example of
the external functions.
-/

namespace Verif.Env

open Verif.CA Verif.Prot

/-- A prefix code. -/
class Codec (α : Type) where
  enc : α → Bytes
  dec : Bytes → Option (α × Bytes)
  law : ∀ a r, dec (enc a ++ r) = some (a, r)

/-- Base 128, least digit first; the digits but the last are marked. -/
def encNatF : Nat → Nat → Bytes
  | 0, n => [UInt8.ofNat n]
  | f + 1, n => if n < 128 then [UInt8.ofNat n] else UInt8.ofNat (128 + n % 128) :: encNatF f (n / 128)

def decNat : Bytes → Option (Nat × Bytes)
  | [] => none
  | b :: r =>
    if b.toNat < 128 then some (b.toNat, r)
    else
      match decNat r with
      | none => none
      | some (n, r) => some (b.toNat - 128 + 128 * n, r)

theorem natF_law (f n : Nat) (r : Bytes) (h : n ≤ f) : decNat (encNatF f n ++ r) = some (n, r) := by
  induction f generalizing n with
  | zero =>
    have : n = 0 := by omega
    subst this
    rfl
  | succ f ih =>
    unfold encNatF
    by_cases hn : n < 128
    · rw [if_pos hn]
      show (if (UInt8.ofNat n).toNat < 128 then _ else _) = _
      have : (UInt8.ofNat n).toNat = n := by
        rw [UInt8.toNat_ofNat']
        omega
      rw [this, if_pos hn]
      simp
    · rw [if_neg hn]
      have ht : (UInt8.ofNat (128 + n % 128)).toNat = 128 + n % 128 := by
        rw [UInt8.toNat_ofNat']
        omega
      show (if (UInt8.ofNat (128 + n % 128)).toNat < 128 then _ else _) = _
      rw [ht, if_neg (by omega)]
      have : decNat (List.append (encNatF f (n / 128)) r) = some (n / 128, r) := ih (n / 128) (by omega)
      rw [this]
      dsimp only
      congr 2
      omega

instance : Codec Nat where
  enc n := encNatF n n
  dec := decNat
  law n r := natF_law n n r (Nat.le_refl n)

instance : Codec UInt8 where
  enc b := [b]
  dec l := match l with
    | [] => none
    | b :: r => some (b, r)
  law _ _ := rfl

/-- By another type. -/
def codecVia {α β : Type} [Codec β] (f : α → β) (g : β → α) (h : ∀ a, g (f a) = a) : Codec α where
  enc a := Codec.enc (f a)
  dec l := match (Codec.dec l : Option (β × Bytes)) with
    | none => none
    | some (b, r) => some (g b, r)
  law a r := by
    rw [Codec.law]
    simp [h]

instance {α β : Type} [Codec α] [Codec β] : Codec (α × β) where
  enc x := Codec.enc x.1 ++ Codec.enc x.2
  dec l := match (Codec.dec l : Option (α × Bytes)) with
    | none => none
    | some (a, l) =>
      match (Codec.dec l : Option (β × Bytes)) with
      | none => none
      | some (b, l) => some ((a, b), l)
  law x r := by
    rw [List.append_assoc, Codec.law]
    dsimp only
    rw [Codec.law]

instance {α β : Type} [Codec α] [Codec β] : Codec (α ⊕ β) where
  enc x := match x with
    | .inl a => 0 :: Codec.enc a
    | .inr b => 1 :: Codec.enc b
  dec l := match l with
    | [] => none
    | t :: l =>
      if t = 0 then
        match (Codec.dec l : Option (α × Bytes)) with
        | none => none
        | some (a, l) => some (.inl a, l)
      else
        match (Codec.dec l : Option (β × Bytes)) with
        | none => none
        | some (b, l) => some (.inr b, l)
  law x r := by
    cases x with
    | inl a =>
      show (if (0 : UInt8) = 0 then _ else _) = _
      rw [if_pos rfl, show Codec.dec (List.append (Codec.enc a) r) = some (a, r) from Codec.law a r]
    | inr b =>
      show (if (1 : UInt8) = 0 then _ else _) = _
      rw [if_neg (by decide), show Codec.dec (List.append (Codec.enc b) r) = some (b, r) from Codec.law b r]

instance : Codec Unit where
  enc _ := []
  dec l := some ((), l)
  law _ _ := rfl

instance {α : Type} [Codec α] : Codec (Option α) :=
  codecVia (β := Unit ⊕ α) (fun x => match x with
      | none => .inl ()
      | some a => .inr a)
    (fun x => match x with
      | .inl _ => none
      | .inr a => some a)
    (by intro x; cases x <;> rfl)

instance : Codec Int :=
  codecVia (β := Nat ⊕ Nat) (fun x => match x with
      | .ofNat n => .inl n
      | .negSucc n => .inr n)
    (fun x => match x with
      | .inl n => .ofNat n
      | .inr n => .negSucc n)
    (by intro x; cases x <;> rfl)

/-- As many elements as the number says. -/
def decList {α : Type} [Codec α] : Nat → Bytes → Option (List α × Bytes)
  | 0, l => some ([], l)
  | n + 1, l =>
    match (Codec.dec l : Option (α × Bytes)) with
    | none => none
    | some (a, l) =>
      match decList n l with
      | none => none
      | some (as, l) => some (a :: as, l)

theorem list_law {α : Type} [Codec α] (as : List α) (r : Bytes) :
    decList as.length ((as.map Codec.enc).flatten ++ r) = some (as, r) := by
  induction as with
  | nil => rfl
  | cons a as ih =>
    show (match (Codec.dec (Codec.enc a ++ (as.map Codec.enc).flatten ++ r) : Option (α × Bytes)) with
      | none => none
      | some (a, l) =>
        match decList as.length l with
        | none => none
        | some (as, l) => some (a :: as, l)) = _
    rw [List.append_assoc, Codec.law]
    dsimp only
    rw [ih]

instance {α : Type} [Codec α] : Codec (List α) where
  enc l := Codec.enc l.length ++ (l.map Codec.enc).flatten
  dec l := match (Codec.dec l : Option (Nat × Bytes)) with
    | none => none
    | some (n, l) => decList n l
  law l r := by
    rw [List.append_assoc, Codec.law]
    dsimp only
    rw [list_law]

theorem codec_law {α : Type} [Codec α] (a : α) : Codec.dec (Codec.enc a) = some (a, []) := by
  have := Codec.law a []
  rwa [List.append_nil] at this

instance : Codec Pbkdf2 :=
  codecVia (β := Option Bytes × Int × Option Int × List Nat × Option Bytes)
    (fun p => (p.salt, p.iter, p.keyLen, p.prf, p.prfPar)) (fun x => ⟨x.1, x.2.1, x.2.2.1, x.2.2.2.1, x.2.2.2.2⟩)
    (fun _ => rfl)

instance : Codec Oaep :=
  codecVia (β := Option (List Nat) × Option (List Nat × Option Bytes) × Option Bytes)
    (fun p => (p.hash, p.mgf, p.label)) (fun x => ⟨x.1, x.2.1, x.2.2⟩) (fun _ => rfl)

instance : Codec RawAlg :=
  codecVia (β := List Nat × Option Bytes) (fun p => (p.oid, p.par)) (fun x => ⟨x.1, x.2⟩) (fun _ => rfl)

instance : Codec Rid :=
  codecVia (β := Bytes × Int ⊕ Bytes) (fun x => match x with
      | .iss i s => .inl (i, s)
      | .ski b => .inr b)
    (fun x => match x with
      | .inl x => .iss x.1 x.2
      | .inr b => .ski b)
    (by intro x; cases x <;> rfl)

/-- A KEM recipient whose parameters of the key derivation are absent or bytes. -/
abbrev KemriT : Type :=
  Option Int × Option Rid × Option (List Nat) × Option Bytes × Option (List Nat × Option Bytes) × Option Int ×
    Option Bytes × Option RawAlg × Option Bytes

/-- Bytes for parameters. -/
def parOf : Option Bytes → KdfPar
  | none => .absent
  | some b => .raw b

def kemriOf (x : KemriT) : Kemri :=
  ⟨x.1, x.2.1, x.2.2.1, x.2.2.2.1, x.2.2.2.2.1.map (fun y => (y.1, parOf y.2)), x.2.2.2.2.2.1, x.2.2.2.2.2.2.1,
    x.2.2.2.2.2.2.2.1, x.2.2.2.2.2.2.2.2⟩

def kemriTo (der : KdfPar → Option Bytes) (k : Kemri) : KemriT :=
  (k.version, k.rid, k.kem, k.kemct, k.kdf.map (fun y => (y.1, der y.2)), k.kekLen, k.ukm, k.wrap, k.encKey)

/-- The bytes of parameters. -/
def exParDer : KdfPar → Option Bytes
  | .absent => none
  | .pbkdf2 p => some (Codec.enc p)
  | .hash o => some (Codec.enc (α := List Nat) o)
  | .raw b => some b

/-- Removing what stands before. -/
def stripPre : Bytes → Bytes → Except PyErr Bytes
  | [], l => .ok l
  | a :: p, b :: l => if a = b then stripPre p l else .error .valueError
  | _ :: _, [] => .error .valueError

theorem stripPre_append (p l : Bytes) : stripPre p (p ++ l) = .ok l := by
  induction p with
  | nil => rfl
  | cons a p ih =>
    show (if a = a then stripPre p (p ++ l) else _) = _
    rw [if_pos rfl, ih]

/-- The padding as bytes. -/
def exPad : RsaPad → Bytes
  | .pkcs1 => [1]
  | .oaep h g => [2, UInt8.ofNat h.length, UInt8.ofNat g.length]

/-- MACs with a codec for PBKDF2; the parameters of the other algorithms are not encoded. -/
def exMac2 : MacEnv :=
  { H := fun n b => (if n = "sha256" then 1 else if n = "sha512" then 2 else UInt8.ofNat n.length) :: b
    hmac := fun n k d => UInt8.ofNat n.toList.length :: (k ++ d)
    kmac := fun _ k d => .ok (k ++ d)
    gmac := fun k n d => .ok (k ++ n ++ d)
    pbkdf2 := fun _ s i l p => .ok (p ++ s ++ [UInt8.ofNat i.toNat, UInt8.ofNat l.toNat])
    special := fun _ => none
    encPbm := fun _ => []
    decPbm := fun _ => none
    encPbmac1 := fun _ => []
    decPbmac1 := fun _ => none
    encPbkdf2 := Codec.enc
    decPbkdf2 := Codec.dec
    encGcm := fun n => n
    decGcm := fun b => some (b, [])
    encDhbm := fun _ => []
    decDhbm := fun _ => none
    encKem := fun _ => []
    decKem := fun _ => none
    encPss := fun _ => []
    decPss := fun _ => none
    encCt := fun _ c => c.getD []
    nullDer := [5, 0]
    encPart := fun f a t i b =>
      f ++ (match a with
        | none => []
        | some x => x.2.getD []) ++ t.getD [] ++ (i.map (·.2)).flatten ++ b }

/-- Keys are numbers: 0 and 6 a KEM, 1 and 7 RSA, 2 and 3 EC, 4 and 5 X25519. A private key has the number of its public
key; a certificate has the key of its last digit, and a subject key identifier when its number has two digits. -/
def exK : KEnv Nat Nat Nat where
  toMacEnv := exMac2
  isSignKey := fun _ => true
  isComposite := fun _ => false
  isRsa := fun s => decide (s = 1 ∨ s = 7)
  isDsa := fun _ => false
  isEcdh := fun s => decide (2 ≤ s ∧ s ≤ 5)
  isX := fun s => decide (s = 4 ∨ s = 5)
  isKemKey := fun s => decide (s = 0 ∨ s = 6 ∨ s = 1)
  isRsaKem := fun s => decide (s = 1)
  isVerifyKey := fun _ => true
  isCompositePub := fun _ => false
  isRsaPub := fun s => decide (s = 1 ∨ s = 7)
  isEcdhPub := fun s => decide (2 ≤ s ∧ s ≤ 5)
  isKemPub := fun s => decide (s = 0 ∨ s = 6 ∨ s = 1)
  isRsaKemPub := fun s => decide (s = 1)
  sign := fun _ _ _ => .error .valueError
  verify := fun _ _ _ _ => .error .invalidSignature
  ecdh := fun _ _ => .error .valueError
  encaps := fun k md r => .ok (UInt8.ofNat k :: r, (if md = .plain then 3 else 1) :: r)
  decaps := fun s md c =>
    match c with
    | [] => .error .valueError
    | x :: r => if x = (if md = .plain then 3 else 1) then .ok (UInt8.ofNat s :: r) else .error .valueError
  kemOid := fun s => [s]
  kemOidPub := fun s => [s]
  keyOf := fun c => .ok (c % 10)
  certHash := fun _ => .ok none
  selfCert := fun s => .ok s
  patchSender := fun _ b => b
  sigOid := fun _ _ => .error .valueError
  compOid := fun _ => []
  compName := fun _ => none
  isPqOid := fun _ => false
  isPqSig := fun _ => false
  isPqPre := fun _ => false
  isStateful := fun _ => false
  consistent := fun _ _ => .ok ()
  decAlg := Codec.dec (α := List Nat)
  decCt := fun _ => none
  hkdf := fun n ss info l => .ok (UInt8.ofNat n.length :: UInt8.ofNat l.toNat :: (ss ++ info))
  encInfo := fun t _ => t
  pubOf := id
  skiOf := fun c => if c < 10 then none else some [UInt8.ofNat c]
  issuerOf := fun _ => [48, 1, 1]
  serialOf := fun c => c
  isEc := fun s => decide (s = 2 ∨ s = 3)
  isEcPub := fun s => decide (s = 2 ∨ s = 3)
  isXPub := fun s => decide (s = 4 ∨ s = 5)
  dh := fun s k co => .ok [UInt8.ofNat (s + k), UInt8.ofNat (s * k), if co then 1 else 0]
  mqvSend := fun s e k => .ok [UInt8.ofNat s, UInt8.ofNat e, UInt8.ofNat k]
  mqvRecv := fun s k e => .ok [UInt8.ofNat k, UInt8.ofNat e, UInt8.ofNat s]
  wrap := fun k c => .ok (k ++ c)
  unwrap := stripPre
  cbcEnc := fun k iv d => .ok (k ++ iv ++ d)
  cbcDec := fun k iv d => stripPre (k ++ iv) d
  rsaEnc := fun k p _ d => .ok (UInt8.ofNat k :: (exPad p ++ d))
  rsaDec := fun s p d => stripPre (UInt8.ofNat s :: exPad p) d
  decapsRsa := fun s c _ =>
    match c with
    | [] => .error .valueError
    | x :: r => if x = 2 then .ok (UInt8.ofNat s :: r) else .error .valueError
  isRsaDecap := fun s => decide (s = 1 ∨ s = 7)
  kemOidE := fun s => if s = 0 ∨ s = 6 then .ok [1000] else if s = 1 ∨ s = 7 then .ok [1001] else .error .keyError
  kemOidPubE := fun s => if s = 0 ∨ s = 6 then .ok [1000] else if s = 1 ∨ s = 7 then .ok [1001] else .error .keyError
  isKemOid := fun o => decide (o = [1000] ∨ o = [1001])
  encIv := fun b => Codec.enc b
  decIv := Codec.dec
  encWrapAlg := fun o => Codec.enc (α := List Nat) o
  decWrapAlg := Codec.dec (α := List Nat)
  encOaep := Codec.enc
  decOaep := Codec.dec
  encOid := fun o => Codec.enc (α := List Nat) o
  decOid := Codec.dec (α := List Nat)
  encHashAlg := fun o => Codec.enc (α := List Nat) o
  encShared := fun o u n => Codec.enc (α := List Nat × Option Bytes × Nat) (o, u, n)
  encOther := fun a n u => Codec.enc (α := RawAlg × Int × Option Bytes) (a, n, u)
  encKemri := fun k => Codec.enc (kemriTo exParDer k)
  decKemri := fun b => (Codec.dec (α := KemriT) b).map (fun x => (kemriOf x.1, x.2))
  encMqv := fun k u => Codec.enc (α := Nat × Option Bytes) (k, u)
  decMqv := fun b => (Codec.dec (α := Nat × Option Bytes) b).map (fun x => (([1, 2, 840, 10045, 2, 1], .ok x.1.1, x.1.2), x.2))

theorem exK_kemri (k : Kemri) : exK.decKemri (exK.encKemri k) = some (wireKemri exK k, []) := by
  have hp : ∀ p, parOf (exParDer p) = wireKdfPar exK p := by
    intro p
    cases p <;> rfl
  show (Codec.dec (α := KemriT) (Codec.enc (kemriTo exParDer k))).map (fun x => (kemriOf x.1, x.2)) = _
  rw [codec_law]
  obtain ⟨v, r, o, ct, kdf, n, u, w, ek⟩ := k
  cases kdf with
  | none => rfl
  | some y =>
    show some ((⟨v, r, o, ct, some (y.1, parOf (exParDer y.2)), n, u, w, ek⟩ : Kemri), ([] : Bytes)) = _
    rw [hp]
    rfl

theorem exK_mqv (e : Nat) (u : Option Bytes) :
    exK.decMqv (exK.encMqv e u) = some (([1, 2, 840, 10045, 2, 1], .ok e, u), []) := by
  show (Codec.dec (α := Nat × Option Bytes) (Codec.enc (e, u))).map _ = _
  rw [codec_law]
  rfl

theorem exK_wrap (k c w : Bytes) (h : exK.wrap k c = .ok w) : exK.unwrap k w = .ok c := by
  cases h
  exact stripPre_append k c

theorem exK_cbc (k iv d c : Bytes) (h : exK.cbcEnc k iv d = .ok c) : exK.cbcDec k iv c = .ok d := by
  cases h
  exact stripPre_append (k ++ iv) d

end Verif.Env
