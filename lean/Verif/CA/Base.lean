/-!
# Shared vocabulary of the mock CA model

Exceptions are values, a Python method that may mutate `self` and may raise is a function
`σ → Except PyErr α × σ`: the state component is returned also when the call raises, so partial effects
of a failing call are visible in the model.
-/

namespace Verif.CA

/-- The exception classes raised by the modelled code (`resources/exceptions.py` and Python built-ins).
Messages and `failInfo` texts are dropped. -/
inductive PyErr where
  | valueError
  | typeError
  | keyError
  | exception          -- plain `Exception(...)`
  | notImplemented
  | badRequest
  | badMessageCheck
  | certRevoked
  | certConfirmed
  | transactionIdInUse
  | badCertId
  | badSenderNonce
  | badRecipientNonce
  | badDataFormat
  | badTime
  | wrongIntegrity
  | notAuthorized
  | badCertTemplate
  | bodyRelevantError
  | badValueBehavior
  | wrongAuthority
  | badPOP
  | badConfig
  | addInfoNotAvailable
  | attributeError
  | indexError
  | pyasn1Error
  | badAsn1Data
  | unknownOID
  | invalidKeyData
  | invalidSignature
  | invalidKeyCombination
  | overflowError
  | assertionError
  | badAlg
  | mismatchingKey
  | badSigAlgId
  | mechanismNotSupported
  | signerNotTrusted
  | unsupportedVersion
  | duplicateCertReq
  | badKeyUsage
  | invalidAltSignature
  | badAltPOP
  | badMacProtection
  | badSignatureProtection
  | lwCmpViolation
  deriving DecidableEq, Repr

instance {ε α : Type} [DecidableEq ε] [DecidableEq α] : DecidableEq (Except ε α)
  | .ok a, .ok b => if h : a = b then isTrue (by rw [h]) else isFalse (by simp [h])
  | .error a, .error b => if h : a = b then isTrue (by rw [h]) else isFalse (by simp [h])
  | .ok _, .error _ => isFalse (by simp)
  | .error _, .ok _ => isFalse (by simp)

/-- Result of a call on state `σ`: the returned value or the exception, and the state afterwards. -/
abbrev Res (σ α : Type) := Except PyErr α × σ

/-- Did the call return normally? -/
def Res.isOk {σ α : Type} (r : Res σ α) : Bool :=
  match r.1 with
  | .ok _ => true
  | .error _ => false

/-- `mock_ca/mock_fun.py` 716-737, `CertStateEnum`. -/
inductive CertState where
  | notConfirmed
  | confirmed
  | revoked
  | updated
  | updatedNotConfirmed
  | revived
  | unknown
  deriving DecidableEq, Repr

end Verif.CA
