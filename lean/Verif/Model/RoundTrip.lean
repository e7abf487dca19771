/-
The exchanges of an EcoSpold2 data set converted to ILCD, and the result converted to EcoSpold2 again.
Puts together Model/EcsFlows (the exchanges there), Model/FlowFiles (the flow data sets and the references to them),
Model/RefUnits (the units and flow properties) and Model/IlcdFlows with Model/Refs (the exchanges back and the finding of files).
The parts that stand between them are src/Lavoisier/conversions/ECS2_to_ILCD1_conversion.py:1187-1207 (what is put into
the file of a product), 2073-2084 (the amounts) and src/Lavoisier/conversions/ILCD1_to_ECS2_conversion.py:94-110 (the
parameters of an uncertainty), 388-413 (what is read of an exchange), 803-831 and 991-1020 (the file of a flow and what is
read of it).

Simplifications: those of the models named. How a number is written is a parameter (`shown`); the theorems ask that the numbers
of the data set are read as they were written (`Spec.Legible`).
Comments and variables of the exchanges, and distributions ILCD does not know, are taken from outside (`Extras`); they are in
Model/Comments, Model/IlcdVars and Model/UncText. Elementary flows have the files that come with the package.
-/
import Verif.Model.EcsFlows
import Verif.Model.FlowFiles
import Verif.Model.IlcdFlows
import Verif.Model.Refs
import Verif.Model.RefUnits
import Verif.Model.Uuid

namespace Verif.RoundTrip

open Uncertainty (Written)

/-- What the file of a product says of it besides its properties, ECS2_to_ILCD1_conversion.py:1194-1204. -/
structure Info where
  name : Str
  ftype : Option EcsFlows.FType
  deriving DecidableEq

/-- The texts of the types, :996-1009. -/
def typeText : EcsFlows.FType → Str
  | .product => c!"Product flow"
  | .waste => c!"Waste flow"
  | .elementary => c!"Elementary flow"

/-- The texts of the directions, :993-994. -/
def dirText : EcsFlows.Dir → Str
  | .input => c!"Input"
  | .output => c!"Output"

section

variable {P : Type} [DecidableEq P]

/-- What `get_flow_dict` gets of an exchange, :1187-1207 and 1337-1367; nothing for an exchange without a counterpart. -/
def fileExchange (env : EcsFlows.Env P) (x : EcsFlows.Exch) : Option (FlowFiles.Exchange P Info) :=
  match env.fp x, EcsFlows.direction x with
  | .ok p, .ok (d, g) =>
    if x.isElem then (EcsFlows.rowOf env x).map fun r => .elementary x.fid r.target p
    else some (.intermediate x.fid p ⟨x.name, EcsFlows.flowType x.byProduct d g⟩)
  | _, _ => none

/-- An ILCD data set as it is written: its exchanges, the numbers of the reference flows, the folder of the flows and the
references to them, one for each exchange converted (in their order, which is that of their numbers). -/
structure Doc (P : Type) where
  flows : List EcsFlows.Flow
  refs : List Nat
  files : List (Str × FlowFiles.Content P Info)
  links : List FlowFiles.Ref

/-- The conversion to ILCD. -/
noncomputable def there (env : EcsFlows.Env P) (fenv : FlowFiles.Env) (sumSame : Bool) (xs : List EcsFlows.Exch) :
    Py (Doc P) := do
  let s ← EcsFlows.run env xs (EcsFlows.fresh [])
  let out ← EcsFlows.finish sumSame s.shares s.flows
  let (st, rs) ← FlowFiles.run fenv ⟨[], []⟩ (xs.filterMap (fileExchange env))
  .ok ⟨out, s.refs, st.files, rs⟩

/-- The parameters of an uncertainty, ILCD1_to_ECS2_conversion.py:94-110 with :140 and 147. -/
noncomputable def uncOf (w : Written) : IlcdFlows.Unc ℝ :=
  match w.kind with
  | .lognormal => .lognormal (Real.log (Real.sqrt (w.std95.getD 0)) ^ 2)
  | .normal => .normal ((w.std95.getD 0 / 2) ^ 2)
  | .triangular => .triangular w.min w.max
  | .uniform => .uniform w.min w.max

/-- What is not followed here: comments, variables, and the distributions kept in comments (:112-127). -/
structure Extras where
  comments : EcsFlows.Flow → List Str
  var : EcsFlows.Flow → Option (Str × Option Str)
  fromComment : EcsFlows.Flow → Option (IlcdFlows.Unc ℝ)

/-- An exchange of the ILCD data set as it is read, :388-413. -/
noncomputable def exchOf (shown : ℝ → Str) (ex : Extras) (f : EcsFlows.Flow) (r : FlowFiles.Ref) : IlcdFlows.Exch ℝ where
  fid := r.id
  version := r.version
  uri := r.uri
  shortNames := if f.src.name = [] then [] else [f.src.name]
  resulting := f.mean.map shown
  mean := f.mean.map shown
  comments := ex.comments f
  var := ex.var f
  dir := dirText f.dir
  internalId := natStr f.internalId
  unc := match f.bounds with
    | some w => some (uncOf w)
    | none => ex.fromComment f

/-- The exchanges read from a data set: the `n`th reference belongs to the exchange with the number `n`. -/
noncomputable def exchanges (shown : ℝ → Str) (ex : Extras) (d : Doc P) : List (IlcdFlows.Exch ℝ) :=
  d.flows.filterMap fun f => (d.links[f.internalId - 1]?).map (exchOf shown ex f)

/-- What is read from a file of the folder, :992-1020. `unitProp` is the flow property of the unit, the first of the
properties and the reference (ECS2_to_ILCD1_conversion.py:1189, 1529); `package` are the files of the package. -/
def flowFile (unitProp : P → Str) (package : Str → IlcdFlows.FlowFile) :
    FlowFiles.Content P Info → IlcdFlows.FlowFile
  | .made _ p i => ⟨i.ftype.map typeText, [i.name], some (unitProp p)⟩
  | .copied t => package t

/-- The file a reference leads to, :803-831. -/
def lookup (files : List (Str × FlowFiles.Content P Info)) (id version uri : Str) : Option (FlowFiles.Content P Info) :=
  (Refs.getFile (some (files.map fun p => (p.1, true))) ⟨uri, id, version, .absent⟩).bind fun n => aget n files

/-- What surrounds the conversion back: the files and the reference flows are those of the data set, the units those of
`ilcd_to_ecs2_un`, the identifiers are converted back. -/
noncomputable def reader {D : Type} (base : IlcdFlows.Env ℝ D) (E : Uuid.BlockFn) (unitProp : P → Str)
    (package : Str → IlcdFlows.FlowFile) (d : Doc P) : IlcdFlows.Env ℝ D :=
  { base with
    convId := Uuid.ilcdToEcs E
    refs := d.refs.map natStr
    file := fun id version uri => (lookup d.files id version uri).map (flowFile unitProp package)
    units := Units.ilcdToEcsUnit }

/-- The conversion back to EcoSpold2. -/
noncomputable def back {D : Type} [DecidableEq D] (base : IlcdFlows.Env ℝ D) (E : Uuid.BlockFn) (unitProp : P → Str)
    (package : Str → IlcdFlows.FlowFile) (shown : ℝ → Str) (ex : Extras) (d : Doc P) : Py (IlcdFlows.St ℝ) :=
  IlcdFlows.convertAll (reader base E unitProp package d) .empty (exchanges shown ex d)

end

end Verif.RoundTrip
