/-!
Python exceptions as values.
-/

namespace Verif

/-- The exception classes the modelled code distinguishes.
Models: pepclibs/helperlibs/Exceptions.py:19-140, pepclibs/_PropsClassBase.py:72-90,
pepclibs/PStates.py:26-38, pepctool/_OpTarget.py:20-25. The `py*` constructors are built-in Python
exceptions that are not derived from `Error` and escape to the caller (a crash with a traceback).
Messages are dropped. -/
inductive Exn where
  | error
  | notFound
  | notSupported
  | permissionDenied
  | badFormat
  | verifyFailed
  | usePerCPU
  | tryAnother
  | freqOrder
  | freqRange
  | noTarget
  | noCPUTarget
  | pyKeyError
  | pyValueError
  | pyIndexError
  | pyTypeError
  | pyOverflowError
  | pyUnboundLocal
  | pyAttributeError
  deriving DecidableEq, Repr

/-- `isinstance(err, ErrorNotSupported)`. Models: pepclibs/helperlibs/Exceptions.py:94. -/
def Exn.isNotSupported : Exn → Bool
  | .notSupported => true
  | _ => false

/-- `isinstance(err, ErrorTryAnotherMechanism)`; `ErrorFreqRange` is a sub-class.
Models: pepclibs/_PropsClassBase.py:82, pepclibs/PStates.py:32. -/
def Exn.isTryAnother : Exn → Bool
  | .tryAnother => true
  | .freqRange => true
  | _ => false

deriving instance DecidableEq for Except

/-- The result is a success. -/
def Except.isOk' {ε α : Type} : Except ε α → Bool
  | .ok _ => true
  | .error _ => false

end Verif
