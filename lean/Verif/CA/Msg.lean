import Verif.CA.Base
import Verif.CA.Dict

/-!
# Messages

The part of a `PKIMessage` the modelled handlers look at. Certificates are values of an arbitrary type
`C`; names (`sender`) are their DER encoding.
-/

namespace Verif.CA

/-- Octet strings. -/
abbrev Bytes := List UInt8

/-- `resources/suiteenums.py` 201-249, `ProtectedType` (of a message whose `protectionAlg` is set). -/
inductive ProtType where
  | tradSig
  | kem
  | dh
  | mac
  | pqSig
  | compositeSig
  | pqStateful
  deriving DecidableEq, Repr

/-- Values of `PKIStatus` in a `CertStatus.statusInfo` (`other` stands for the remaining ones). -/
inductive StatusVal where
  | accepted
  | rejection
  | other
  deriving DecidableEq, Repr

/-- `rfc9480.CertStatus`; `status = none` means the optional `statusInfo` is absent, `hashAlg = none`
that the optional `hashAlg` is absent. -/
structure CertStatus where
  certReqId : Int := 0
  certHash : Option Bytes
  status : Option (StatusVal × Bool) := none   -- (status, failInfo present)
  hashAlg : Option String := none

/-- A `PKIMessage`, restricted to the fields the models use. `prot = none` means
`header["protectionAlg"].isValue` is false; an absent `extraCerts` field is the empty list. -/
structure Msg (C : Type) where
  body : String
  pvno : Int := 2
  txId : Option Bytes
  senderNonce : Option Bytes
  recipNonce : Option Bytes := none
  sender : Bytes := []
  prot : Option ProtType := none
  protAlg : String := ""
  extraCerts : List C := []
  certConf : List CertStatus := []

end Verif.CA
