import Verif.Model.MapFile

/-! What a user expects of the table of elementary flows, in terms of the header, the records and the paths. -/

namespace Verif.MapFile.Spec

/-- The record that decides about a flow: it names the flow in column `i`, and no later record does. -/
def Decides (i : Nat) (records : List (List Str)) (fid : Str) (r : List Str) : Prop :=
  ∃ pre post, records = pre ++ r :: post ∧ r[i]? = some fid ∧ ∀ q ∈ post, q[i]? ≠ some fid

/-- The places of the columns that the conversion reads. -/
structure Columns (header : List Str) where
  source : Nat
  mapType : Nat
  target : Nat
  name : Nat
  unit : Nat
  factor : Nat
  hsource : header[source]? = some c!"SourceFlowUUID"
  hmapType : header[mapType]? = some c!"MapType"
  htarget : header[target]? = some c!"TargetFlowUUID"
  hname : header[name]? = some c!"TargetFlowName"
  hunit : header[unit]? = some c!"TargetUnit"
  hfactor : header[factor]? = some c!"ConversionFactor"

/-- A record whose cells are given by their columns. -/
structure Says {header : List Str} (c : Columns header) (r : List Str) (mt target name unit factor : Str) : Prop where
  mapType : r[c.mapType]? = some mt
  target : r[c.target]? = some target
  name : r[c.name]? = some name
  unit : r[c.unit]? = some unit
  factor : r[c.factor]? = some factor

/-- The file that the user means by a path: relative paths begin at the working directory. -/
def Means (cwd : Path) (p q : Path) : Prop :=
  (p.abs = true ∧ q = p) ∨ (p.abs = false ∧ q.abs = cwd.abs ∧ q.parts = cwd.parts ++ p.parts)

end Verif.MapFile.Spec
