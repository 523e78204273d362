/-! Python exceptions as values. -/

namespace Verif.Lib

/-- The Python exceptions that the modelled code can raise (message texts are dropped). -/
inductive PyErr
  | valueError
  | keyError
  | indexError
  | typeError
  | attributeError
  | importError
  | unboundLocal
  | notImplemented
  | zeroDivision
  | nameError
  /-- a plain `Exception` -/
  | generic
  /-- CosmoSIS: value missing in the data block, or of the wrong type -/
  | blockError
  deriving DecidableEq, Repr

end Verif.Lib
