/-
Numbers given to the texts of an ILCD data set that is moved to another list of elementary flows.
Models src/Lavoisier/conversions/ILCD1_to_ILCD1_conversion.py:423-435 (`place_index`).

The method changes the dictionary it is given in place and returns it (a new one for texts); the model
returns the result. Keys of a Python dictionary are distinct.
-/
import Verif.Model.PyVal
import Verif.Model.Assoc

namespace Verif.PlaceIndex

/-- `'@lang' in list(x)` for a dictionary, :424. -/
def hasLang (d : List (Str × PyVal)) : Bool := (aget c!"@lang" d).isSome

/-- `'@lang' in list(x)` for a list, :424. -/
def isLangStr : PyVal → Bool
  | .str s => s == c!"@lang"
  | _ => false

def isDict : PyVal → Bool
  | .dict _ => true
  | _ => false

/-- What a call on something other than a dictionary raises: a text and a list can be listed (:424) but
have no `items` (:427); a list with the member `@lang` cannot be united with a dictionary (:426); other
values cannot be listed. -/
def notDict : PyVal → PyErr
  | .str _ => .attributeError
  | .list l => if l.any isLangStr then .typeError else .attributeError
  | _ => .typeError

mutual
/-- The value left under a key, :428-434; for a dictionary this is the call of the method, :424-435. -/
def entry (i : Int) : PyVal → Py PyVal
  | .dict d =>
    if hasLang d then .ok (.dict (aset c!"@index" (.int (i + 1)) d))
    else
      match items i d with
      | .error e => .error e
      | .ok d' => .ok (.dict d')
  | .list l =>
    match elems i l with
    | .error e => .error e
    | .ok l' => .ok (.list l')
  | v => .ok v

/-- The loop over the keys, :427-434. -/
def items (i : Int) : List (Str × PyVal) → Py (List (Str × PyVal))
  | [] => .ok []
  | (k, v) :: d =>
    match entry i v with
    | .error e => .error e
    | .ok v' =>
      match items i d with
      | .error e => .error e
      | .ok d' => .ok ((k, v') :: d')

/-- The loop over a list, :431-433: the method is called on every member. -/
def elems (i : Int) : List PyVal → Py (List PyVal)
  | [] => .ok []
  | x :: l =>
    if isDict x then
      match entry i x with
      | .error e => .error e
      | .ok x' =>
        match elems i l with
        | .error e => .error e
        | .ok l' => .ok (x' :: l')
    else .error (notDict x)
end

/-- `place_index(x, i)`, :423-435. -/
def place (i : Int) (x : PyVal) : Py PyVal :=
  if isDict x then entry i x else .error (notDict x)

end Verif.PlaceIndex
