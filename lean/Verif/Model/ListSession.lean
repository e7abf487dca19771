/-
The parameters of ILCD data sets that are moved to another list of elementary flows, from data set to data set.
Models src/Lavoisier/conversions/ILCD1_to_ILCD1_conversion.py:56 (`math_rel`, a list of the class), 200-201 (the exchange is
put into the structure), 345-421 (`ILCD1ToILCD1FieldMapping`: there is no method `delete`), 449-450 and 455-456 (the
entries of the mapping) and src/Lavoisier/converter.py:236-242 and 257-280 (the end of a data set, and errors).

`math_rel` belongs to the class of the exchanges, so it lives as long as the program. It is set when the element of the
relations has been read, which stands before the exchanges, changed by the exchanges, and written and emptied at the end of
the data set.

Simplifications: a data set is given by what concerns the parameters. The errors of other elements are given by their
place: before the mapping is made, before the relations, or between the relations and the exchanges. Whether the structure
takes an exchange or a parameter is a parameter, and so is what an exchange that fails leaves of the list.
-/
import Verif.Model.IlcdList

namespace Verif.ListSession
open Verif.IlcdList

variable {K : Type} [Field K]

/-- What surrounds the data sets. -/
structure World (K : Type) where
  env : Env K
  /-- the error of putting an exchange into the structure, :200-201 and 456 -/
  exchange : Exch K → Option PyErr
  /-- the error of putting a parameter into the structure, :411-413 -/
  var : Var K → Option PyErr
  /-- the parameters that an exchange leaves when it fails, :204-232 -/
  left : St K → Exch K → List (Var K)

/-- A data set. -/
structure DataSet (K : Type) where
  /-- an error before there is a mapping, converter.py:216-224 -/
  start : Option PyErr
  /-- an error before the relations -/
  early : Option PyErr
  /-- the parameters, if there is an element for the relations, :449-450 -/
  params : Option (List (Var K))
  /-- an error between the relations and the exchanges -/
  late : Option PyErr
  arch : Archive
  exchanges : List (Exch K)

/-- What is written of a data set. -/
structure Written (K : Type) where
  exchanges : List (Exch K × Option Report)
  params : List (Var K)
  saved : List (Str × Str)
  deriving DecidableEq

/-- The exchanges in their order, :455-456; with an error, the parameters left. -/
def exchanges (w : World K) : St K → List (Exch K) → List (Var K) × Py (List (Exch K × Option Report) × List (Str × Str))
  | s, [] => (s.vars, .ok ([], s.saved))
  | s, x :: l =>
    match IlcdList.convert w.env s x with
    | .error e => (w.left s x, .error e)
    | .ok (y, s, r) =>
      match w.exchange y with
      | some e => (s.vars, .error e)
      | none =>
        match exchanges w s l with
        | (vs, .error e) => (vs, .error e)
        | (vs, .ok (ys, f)) => (vs, .ok ((y, r) :: ys, f))

/-- The first parameter that the structure does not take, :411-413. -/
def refused (w : World K) : List (Var K) → Option PyErr
  | [] => none
  | v :: l =>
    match w.var v with
    | some e => some e
    | none => refused w l

/-- One data set, with `math_rel` before it: `math_rel` after it, and what is written. The second component of an error says
whether there was a mapping. -/
def dataSet (w : World K) (rel : List (Var K)) (d : DataSet K) : List (Var K) × Except (Bool × PyErr) (Written K) :=
  match d.start with
  | some e => (rel, .error (false, e))
  | none =>
    match d.early with
    | some e => (rel, .error (true, e))
    | none =>
      let rel := d.params.getD rel
      match d.late with
      | some e => (rel, .error (true, e))
      | none =>
        match exchanges w ⟨rel, d.arch, []⟩ d.exchanges with
        | (vs, .error e) => (vs, .error (true, e))
        | (vs, .ok (ys, f)) =>
          match refused w vs with
          | some e => (vs, .error (true, e))
          | none => ([], .ok ⟨ys, vs, f⟩)

/-- The error reported, converter.py:268-280: the mapping has no method `delete`. -/
def reported : Bool × PyErr → PyErr
  | (true, _) => .attributeError
  | (false, e) => e

/-- `convert`, converter.py:257-280, for the data sets of a source: the first error ends it. `made` says whether the
converter has a mapping from an earlier call, which stays after an error. -/
def call (w : World K) (made : Bool) : List (Var K) → List (DataSet K) → List (Var K) × Py (List (Written K))
  | rel, [] => (rel, .ok [])
  | rel, d :: l =>
    match dataSet w rel d with
    | (rel, .error (m, e)) => (rel, .error (reported (m || made, e)))
    | (rel, .ok o) =>
      match call w true rel l with
      | (rel, .error e) => (rel, .error e)
      | (rel, .ok os) => (rel, .ok (o :: os))

/-- Calls of new converters one after the other in one program. -/
def session (w : World K) : List (Var K) → List (List (DataSet K)) → List (Py (List (Written K)))
  | _, [] => []
  | rel, c :: l => (call w false rel c).2 :: session w (call w false rel c).1 l

end Verif.ListSession
