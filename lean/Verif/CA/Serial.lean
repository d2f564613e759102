import Verif.CA.Dict

/-!
# Serial numbers of issued certificates

The random generator `x509.random_serial_number()` is a stream `draws`; the state holds the position in it.
A certificate is represented by its serial number and the position in the order of issue.
-/

namespace Verif.CA

/-- State: certificates issued so far (serial number, number of issue), the dictionary `sun_hybrid_certs`
(mock_ca/operation_dbs.py 434), and the number of draws used. -/
structure SerSt where
  issued : List (Int × Nat) := []
  sun : Dict Int Nat := []
  pos : Nat := 0

/-- The loop of `_get_serial_number` (ca_handler.py 1012-1015): `last` is the variable `serial_number`. -/
def serialLoop (used : Int → Bool) (draws : Nat → Int) : Nat → Nat → Option Int → Option Int × Nat
  | 0, pos, last => (last, pos)
  | n + 1, pos, _ =>
    if used (draws pos) = false then (some (draws pos), pos + 1)
    else serialLoop used draws n (pos + 1) (some (draws pos))

/-- `ca_handler.py` 1009-1018, `_get_serial_number`; `none` is the exception. -/
def getSerialNumber (draws : Nat → Int) (st : SerSt) : Option Int × SerSt :=
  let r := serialLoop (fun n => (st.sun.get n).isSome) draws 100 st.pos none
  (r.1, { st with pos := r.2 })

/-- The loop of `process_cert_discovery` (1158-1162), which resets the variable after a collision. -/
def discoveryLoop (used : Int → Bool) (draws : Nat → Int) : Nat → Nat → Option Int × Nat
  | 0, pos => (none, pos)
  | n + 1, pos =>
    if used (draws pos) = false then (some (draws pos), pos + 1) else discoveryLoop used draws n (pos + 1)

/-- `ca_handler.py` 1157-1165; `none` is the exception. -/
def discoverySerial (draws : Nat → Int) (st : SerSt) : Option Int × SerSt :=
  let r := discoveryLoop (fun n => (st.sun.get n).isSome) draws 100 st.pos
  (r.1, { st with pos := r.2 })

/-- Record an issued certificate. -/
def SerSt.add (st : SerSt) (n : Int) : SerSt := { st with issued := st.issued ++ [(n, st.issued.length)] }

/-- `certbuildutils.py` 1776-1778 and 1821-1826: the serial number of the template, otherwise a random one. The
callers in `ca_ra_utils.py` (1066, 1593, 1788, 1905, 1966, 2095, 3074, 4017, 4411) give no serial number, and none
of the template checks (ca_ra_utils.py 1469-1547, 4304-4344) looks at the field. -/
def templateSerial (draws : Nat → Int) (st : SerSt) : Option Int → Int × SerSt
  | some n => (n, st)
  | none => (draws st.pos, { st with pos := st.pos + 1 })

/-- The ways a certificate is issued: a Sun-hybrid request, a certificate discovery request, a `CertTemplate` with
an optional serial number, a CSR. -/
inductive SerOp where
  | sunHybrid
  | discovery
  | template (serial : Option Int)
  | csr

/-- Issue one certificate. A Sun-hybrid certificate is also entered into the dictionary
(mock_ca/hybrid_handler.py 226-240, `_add_to_state`). -/
def SerSt.step (draws : Nat → Int) (st : SerSt) : SerOp → Option Int × SerSt
  | .sunHybrid =>
    match getSerialNumber draws st with
    | (none, st) => (none, st)
    | (some n, st) => (some n, { st.add n with sun := st.sun.set n st.issued.length })
  | .discovery =>
    match discoverySerial draws st with
    | (none, st) => (none, st)
    | (some n, st) => (some n, st.add n)
  | .template s =>
    let r := templateSerial draws st s
    (some r.1, r.2.add r.1)
  | .csr => (some (draws st.pos), { st with pos := st.pos + 1 }.add (draws st.pos))

/-- A history of requests. -/
def SerSt.run (draws : Nat → Int) : List SerOp → SerSt → SerSt
  | [], st => st
  | op :: ops, st => SerSt.run draws ops (st.step draws op).2

/-- `mock_fun.py` 1438-1450, `get_cert_by_serial_number`: the first issued certificate with the number. -/
def SerSt.bySerial (st : SerSt) (n : Int) : Option Nat := (st.issued.find? (fun e => e.1 == n)).map (·.2)

end Verif.CA
