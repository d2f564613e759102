import Verif.CA.Base

/-!
# Exception classes (resources/exceptions.py)
-/

namespace Verif.CA

/-- `isinstance(e, CMPTestSuiteError)`: every class defined in `exceptions.py` derives from it, except
`InvalidAltSignature` (a subclass of cryptography's `InvalidSignature`). The remaining constructors are Python
built-ins and exceptions of pyasn1 and cryptography. -/
def PyErr.isCmp : PyErr → Bool
  | .valueError | .typeError | .keyError | .exception | .notImplemented | .attributeError | .indexError
  | .pyasn1Error | .invalidSignature | .overflowError | .assertionError | .mechanismNotSupported
  | .invalidAltSignature => false
  | _ => true

/-- `isinstance(e, InvalidSignature)`. -/
def PyErr.isInvalidSig : PyErr → Bool
  | .invalidSignature | .invalidAltSignature => true
  | _ => false

/-- `isinstance(e, BadMessageCheck)`. -/
def PyErr.isBadMessageCheck : PyErr → Bool
  | .badMessageCheck | .badMacProtection | .badSignatureProtection => true
  | _ => false

end Verif.CA
