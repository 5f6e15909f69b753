/-!
# Python exceptions as values

Every modelled function that can raise returns `Except PyErr α`.  Only the
exception class is kept, not the message.
-/

namespace Verif

/-- The exception classes that the modelled code raises or lets through.
Raised for example in `xmltre_utils.py` L24, `digital_elevation_model.py` L141, `rsm_sensor_model_builder.py` L314. -/
inductive PyErr
  | valueError
  | indexError
  | keyError
  | typeError
  | attributeError
  | zeroDivisionError
  | overflowError
  | runtimeError
  | linAlgError
deriving DecidableEq, Repr

end Verif
