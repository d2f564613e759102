import Mathlib.Algebra.Group.Basic
import Verif.Prot.Protect

/-!
# One-pass ECMQV

`resources/cryptoutils.py` 975-1127: `avf`, `compute_sender_ecdh_mqv_one_pass_exchange`,
`compute_recipient_ecdh_mqv_one_pass_exchange`; and 467-499, `_compute_ss_plus_cofactor`.

The points of the curve, with the point at infinity, are a commutative group `G`; this and the addition are those of the
library `tinyec`, which is not modelled (it has no multiplication of the point at infinity; then the error is another). A private key is its number. The keys are on one curve. An integer is converted
to a floating-point number exactly as Python does it; the logarithm of that number is a parameter.
-/

namespace Verif.Env

open Verif.CA Verif.Prot

/-- A curve: order and cofactor, generator, the first coordinate of a point, and the integer part of the logarithm to
base 2 of a floating-point number that is an integer. -/
structure Curve (G : Type) where
  n : Nat
  h : Nat
  g : G
  x : G → Nat
  flog : Nat → Nat

/-- The conversion of an integer to a floating-point number: 53 digits, rounding half to even. -/
def round53 (n : Nat) : Nat :=
  if n < 2 ^ 53 then n
  else
    let s := n.log2 - 52
    let q := n / 2 ^ s
    let r := n % 2 ^ s
    (if 2 ^ (s - 1) < r ∨ r = 2 ^ (s - 1) ∧ q % 2 = 1 then q + 1 else q) * 2 ^ s

/-- Big-endian bytes, without leading zeros. -/
def minBytesF : Nat → Nat → Bytes
  | 0, _ => []
  | f + 1, n => if n = 0 then [] else minBytesF f (n / 256) ++ [UInt8.ofNat (n % 256)]

/-- `z.to_bytes((z.bit_length() + 7) // 8, byteorder="big")`. -/
def minBytes (n : Nat) : Bytes := minBytesF n n

variable {G : Type} [AddCommGroup G]

/-- `cryptoutils.py` 975-979: the number of bits. -/
def avfLen (c : Curve G) : Nat := (c.flog (round53 c.n) + 1 + 1) / 2

/-- `cryptoutils.py` 975-979, `avf`. -/
def avf (c : Curve G) (p : G) : Nat := c.x p % 2 ^ avfLen c + 2 ^ avfLen c

/-- `Point.__mul__` of `tinyec`: a multiple of the order gives the point at infinity. -/
def mulPt (c : Curve G) (k : Nat) (p : G) : G := if k % c.n = 0 then 0 else k • p

variable [DecidableEq G]

/-- `cryptoutils.py` 1008-1012 and 1123-1127: the bytes of the first coordinate. -/
def zOf (c : Curve G) (p : G) : Except PyErr Bytes := if p = 0 then .error .valueError else .ok (minBytes (c.x p))

/-- `cryptoutils.py` 983-1012, `compute_sender_ecdh_mqv_one_pass_exchange`: static private key, ephemeral private key,
public key of the recipient. -/
def mqvSendZ (c : Curve G) (ds e : Nat) (q : G) : Except PyErr Bytes :=
  if mulPt c ds c.g = 0 then .error .typeError
  else if mulPt c e c.g = 0 then .error .typeError
  else
    let sig := (e + avf c (mulPt c e c.g) * ds) % c.n
    zOf c (mulPt c (c.h * sig) (q + mulPt c (avf c q) q))

/-- `cryptoutils.py` 1089-1127, `compute_recipient_ecdh_mqv_one_pass_exchange`: private key, its public key, static and
ephemeral public key of the sender. -/
def mqvRecvZ (c : Curve G) (dr : Nat) (qr qs qe : G) : Except PyErr Bytes :=
  if mulPt c dr c.g = 0 then .error .typeError
  else
    let sig := (dr + avf c qr * dr) % c.n
    zOf c (mulPt c (c.h * sig) (qe + mulPt c (avf c qe) qs))

/-- `cryptoutils.py` 467-499, `_compute_ss_plus_cofactor`, for keys on one curve. -/
def cofactorZ (c : Curve G) (d : Nat) (q : G) (cofactor : Nat) : Except PyErr Bytes :=
  if mulPt c d q = 0 then .error .valueError else zOf c (mulPt c cofactor (mulPt c d q))

end Verif.Env
