/-
A conversion as the list of its assignments to the output data set, up to the first exception.
Models the effect of src/Lavoisier/data_structures/main.py:63-120 on the loop of
src/Lavoisier/converter.py that calls `field_mapping[path](output, value)` for every delivered path.
-/
import Verif.Model.DotDict

namespace Verif.DotDict

variable {K V R O : Type}

/-- The operations one after the other; the first exception ends the conversion of the file
(converter.py:246-252, 270-283). -/
def exec (S : Schema K) (vs : Validators K V R O) (asRaw : Arg V R → R) :
    List (Op V R) → Node V → Py (Node V)
  | [], n => .ok n
  | op :: ops, n =>
    match step S vs asRaw n op with
    | (n', none) => exec S vs asRaw ops n'
    | (_, some e) => .error e

end Verif.DotDict
