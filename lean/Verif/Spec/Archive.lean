/-
When an archive is complete in itself, and what the data sets converted ask for; stated without the conversion.
-/
import Verif.Model.Archive

namespace Verif.Archive.Spec

open Verif Verif.Archive

/-- A reference leads to a data set of the archive. -/
def Leads (files : List File) (r : Ref) : Prop := ∃ f ∈ files, f.kind = r.kind ∧ f.id = r.id

/-- Every reference in a process or in another data set of the archive leads to a data set of the archive. -/
def SelfContained (files : List File) (processes : List (Str × List Ref)) : Prop :=
  (∀ p ∈ processes, ∀ r ∈ p.2, Leads files r) ∧ ∀ f ∈ files, ∀ r ∈ f.refs, Leads files r

/-- The properties of an exchange that have a unit and a flow property of ILCD ask for it. -/
def AsksProps (ps : List Property) (fp : Str) : Prop :=
  ∃ p ∈ ps, p.hasUnit = true ∧ ∃ w, aget p.id Units.pintToIlcdFp = some w ∧ w.fp = fp

/-- An amount of a dimension asks for the flow property the tables name for it. -/
def AsksUnit (hash : Str → Str) (energy : Option Str) (dim fp : Str) : Prop :=
  ∃ k w, RefUnits.energyProp energy (hash (RefUnits.correctDim dim)) = some k ∧ aget k Units.pintToIlcdFp = some w ∧
    w.fp = fp

/-- An operation asks for a flow property. -/
def Asks (hash : Str → Str) (fp : Str) : Op → Prop
  | .source _ => False
  | .contact _ => False
  | .product _ e d ps => AsksProps ps fp ∨ AsksUnit hash e d fp
  | .elementary _ e d ps => AsksProps ps fp ∨ AsksUnit hash e d fp
  | .unmapped ps => AsksProps ps fp

/-- All that is done for the data sets of an archive. -/
def allOps (l : List (Str × List Op)) : List Op := l.flatMap Prod.snd

/-- The elementary flows taken from the package. -/
def Target (l : List (Str × List Op)) (t : Str) : Prop := ∃ e d ps, Op.elementary t e d ps ∈ allOps l

/-- What is used of the surroundings: identifiers have 36 characters, and the elementary flow files of the package name one
of the two compliance systems. -/
structure Real (env : Env) : Prop where
  conv : ∀ f id, env.conv f = .ok id → id.length = 36
  elem : ∀ t e, env.elem t = some e → t.length = 36
  compliance : ∀ t e, env.elem t = some e → e.compliance = entryLevel ∨ e.compliance = complianceDraft

end Verif.Archive.Spec
