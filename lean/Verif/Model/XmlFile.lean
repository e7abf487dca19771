/-
The documents the output formats write.
Models src/Lavoisier/data_structures/ILCD1_structure.py:513-533 and 553-556, ECS2_structure.py:877-893 (`get_dict` of the
structures) with formats/ILCD1_format.py:97-104 and formats/ECS2_format.py:31-38, up to the text handed to the file.

Simplification: the texts are characters; their encoding by `open(..., 'w')` is that of the platform and is not
modelled.
-/
import Verif.Model.XmlWrite
import Verif.Model.Schema

namespace Verif.XmlWrite
open Verif.DotDict
open Verif.Schema

mutual
/-- The dictionary `get_dict` returns, as a value. -/
def outVal : Out PyVal → PyVal
  | .leaf v => v
  | .dict l => .dict (outItems l)
  | .list l => .list (outRow l)
def outItems : List (Str × Out PyVal) → List (Str × PyVal)
  | [] => []
  | (k, o) :: l => (k, outVal o) :: outItems l
def outRow : List (Out PyVal) → List PyVal
  | [] => []
  | o :: l => outVal o :: outRow l
end

variable {V R : Type}

/-- The written form of a part. -/
def part (S : Schema Str) (vs : Validators Str V R PyVal) (n : Node V) : Py PyVal :=
  match getDict S vs n with
  | .error e => .error e
  | .ok o => .ok (outVal o)

/-- `ILCD1Structure.get_dict`, ILCD1_structure.py:513-533, and `OLCAILCD1Structure.get_dict`, :553-556, with the declaration
of the namespace of openLCA. The parts are given by their names. -/
def ilcdDoc (vs : Validators Str V R PyVal) (olca : Bool) (p : Key → Node V) : Py (List (Str × PyVal)) := do
  let dsi ← part ilcd vs (p c!"dataSetInformation")
  let ref ← part ilcd vs (p c!"quantitativeReference")
  let time ← part ilcd vs (p c!"time")
  let geo ← part ilcd vs (p c!"geography")
  let tech ← part ilcd vs (p c!"technology")
  let math ← part ilcd vs (p c!"mathematicalRelations")
  let mod ← part ilcd vs (p c!"modellingAndValidation")
  let adm ← part ilcd vs (p c!"administrativeInformation")
  let exch ← part ilcd vs (p c!"exchanges")
  .ok [(c!"processDataSet", .dict ([
    (c!"@xmlns", .str c!"http://lca.jrc.it/ILCD/Process"),
    (c!"@xmlns:common", .str c!"http://lca.jrc.it/ILCD/Common"),
    (c!"@version", .str c!"1.1"),
    (c!"@locations", .str c!"../ILCDLocations.xml"),
    (c!"@metaDataOnly", .str c!"false"),
    (c!"processInformation", .dict [
      (c!"dataSetInformation", dsi),
      (c!"quantitativeReference", ref),
      (c!"time", time),
      (c!"geography", geo),
      (c!"technology", tech),
      (c!"mathematicalRelations", math)]),
    (c!"modellingAndValidation", mod),
    (c!"administrativeInformation", adm),
    (c!"exchanges", exch)] ++
    (if olca then [(c!"@xmlns:olca", .str c!"http://openlca.org/ilcd-extensions")] else [])))]

/-- The entries of a dictionary, `**x`. -/
def entriesIn : PyVal → List (Str × PyVal)
  | .dict d => d
  | _ => []

/-- The user master data, ECS2_structure.py:888-891. `user` is `convert_user_data`. -/
def masterPart (vs : Validators Str V R PyVal) (user : Bool) (n : Node V) : Py (List (Str × PyVal)) :=
  if user then
    match part ecs2 vs n with
    | .error e => .error e
    | .ok m => .ok [(c!"usedUserMasterData", .dict ((c!"@xmlns", .str c!"http://www.EcoInvent.org/UsedUserMasterData") ::
        entriesIn m))]
  else .ok []

/-- `ECS2Structure.get_dict`, ECS2_structure.py:877-893. -/
def ecs2Doc (vs : Validators Str V R PyVal) (user : Bool) (p : Key → Node V) : Py (List (Str × PyVal)) := do
  let act ← part ecs2 vs (p c!"activityDescription")
  let flow ← part ecs2 vs (p c!"flowData")
  let mod ← part ecs2 vs (p c!"modellingAndValidation")
  let adm ← part ecs2 vs (p c!"administrativeInformation")
  let master ← masterPart vs user (p c!"userMaster")
  .ok [(c!"ecoSpold", .dict ([
    (c!"@xmlns", .str c!"http://www.EcoInvent.org/EcoSpold02"),
    (c!"activityDataset", .dict [
      (c!"activityDescription", act),
      (c!"flowData", flow),
      (c!"modellingAndValidation", mod),
      (c!"administrativeInformation", adm)])] ++ master))]

end Verif.XmlWrite
