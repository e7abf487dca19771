/-
The two mappings as wholes: every entry assigns a field of the output format, a conversion stops with a
ValueError just when a field for one value is given two, and the output has its mandatory fields just
when certain elements are delivered.
-/
import Verif.Props.Fill
import Verif.Lemmas.Assign
import Verif.Lemmas.AssignSample

namespace Verif.Assign

open Verif.DotDict Verif.Schema Verif.Mapping

variable {V R O : Type}

/-- The entries of the model are those of the mapping from EcoSpold 2. -/
theorem toIlcd_keys : toIlcdTable.map Prod.fst = ecs2Keys := by decide +kernel

/-- The entries of the model are those of the mapping from ILCD. -/
theorem toEcs2_keys : toEcs2Table.map Prod.fst = ilcdKeys := by decide +kernel

theorem toIlcd_known : toIlcd.knownB = true := by decide +kernel

theorem toEcs2_known : toEcs2.knownB = true := by decide +kernel

theorem toIlcd_clash : toIlcd.clashB = true := by decide +kernel

theorem toEcs2_clash : toEcs2.clashB = true := by decide +kernel

theorem toIlcd_covered : toIlcd.coveredB ilcdNeeds = true := by decide +kernel

theorem toEcs2_covered : toEcs2.coveredB ecs2Needs = true := by decide +kernel

theorem toIlcd_needs : ilcdNeeds.all toIlcd.needB = true := by decide +kernel

theorem toEcs2_needs : ecs2Needs.all toEcs2.needB = true := by decide +kernel

theorem toIlcd_singles : toIlcd.singlesB ilcdSingles [] = true := by decide +kernel

theorem toEcs2_singles : toEcs2.singlesB ecs2Singles ecs2Several = true := by decide +kernel

/-! ### Sample files -/

/-- An EcoSpold 2 file with the mandatory elements, an exchange, and some of the other elements. -/
def sampleEcs2 : List (Ev Unit Unit) :=
  [sampleEv toIlcd ([c!"ecoSpold", c!"activityDataset", c!"activityDescription", c!"activity"], some c!"id") [],
   sampleEv toIlcd ([c!"ecoSpold", c!"activityDataset", c!"activityDescription", c!"activity", c!"activityName"], none) [],
   sampleEv toIlcd ([c!"ecoSpold", c!"activityDataset", c!"activityDescription", c!"activity", c!"tag"], none) [c!"tag"],
   sampleEv toIlcd ([c!"ecoSpold", c!"activityDataset", c!"activityDescription", c!"geography", c!"shortname"], none) [],
   sampleEv toIlcd ([c!"ecoSpold", c!"activityDataset", c!"flowData", c!"intermediateExchange"], none)
    [c!"reference", c!"mapped"],
   sampleEv toIlcd ([c!"ecoSpold", c!"activityDataset", c!"modellingAndValidation", c!"representativeness",
    c!"systemModelName"], none) [],
   sampleEv toIlcd ([c!"ecoSpold", c!"activityDataset", c!"administrativeInformation", c!"dataEntryBy"], none) [],
   sampleEv toIlcd ([c!"ecoSpold", c!"activityDataset", c!"administrativeInformation", c!"fileAttributes"], none) []]

/-- The defaults and the end of a conversion to ILCD. -/
def endIlcd : Ev Unit Unit := sampleEv toIlcd ([], none) [c!"noPrinciple"]

/-- An ILCD file with all that EcoSpold 2 asks for. -/
def sampleIlcd : List (Ev Unit Unit) :=
  [sampleEv toEcs2 ([c!"processDataSet", c!"processInformation", c!"dataSetInformation", c!"UUID"], none) [],
   sampleEv toEcs2 ([c!"processDataSet", c!"processInformation", c!"dataSetInformation", c!"name", c!"baseName"], none) [],
   sampleEv toEcs2 ([c!"processDataSet", c!"processInformation", c!"dataSetInformation", c!"generalComment"], none)
    [c!"tag", c!"inheritance"],
   sampleEv toEcs2 ([c!"processDataSet", c!"processInformation", c!"time", c!"referenceYear"], none) [],
   sampleEv toEcs2 ([c!"processDataSet", c!"processInformation", c!"time", c!"dataSetValidUntil"], none) [],
   sampleEv toEcs2 ([c!"processDataSet", c!"processInformation", c!"geography",
    c!"locationOfOperationSupplyOrProduction"], some c!"location") [],
   sampleEv toEcs2 ([c!"processDataSet", c!"modellingAndValidation", c!"LCIMethodAndAllocation", c!"typeOfDataSet"], none) [],
   sampleEv toEcs2 ([c!"processDataSet", c!"administrativeInformation", c!"dataGenerator",
    c!"referenceToPersonOrEntityGeneratingTheDataSet"], none) [c!"@refObjectId"],
   sampleEv toEcs2 ([c!"processDataSet", c!"administrativeInformation", c!"dataEntryBy",
    c!"referenceToPersonOrEntityEnteringTheData"], none) [c!"@refObjectId"],
   sampleEv toEcs2 ([c!"processDataSet", c!"administrativeInformation", c!"publicationAndOwnership", c!"copyright"], none) [],
   sampleEv toEcs2 ([c!"processDataSet", c!"exchanges", c!"exchange"], none) [c!"intermediate", c!"known"]]

/-- The same with an elementary exchange only. -/
def sampleElementary : List (Ev Unit Unit) :=
  sampleIlcd.take 10 ++ [sampleEv toEcs2 ([c!"processDataSet", c!"exchanges", c!"exchange"], none) [c!"elementary"]]

/-- The defaults and the end of a conversion to EcoSpold 2. -/
def endEcs2 : Ev Unit Unit := sampleEv toEcs2 ([], none) [c!"noEnergy"]

/-- A conversion that goes through. -/
def convertsB (t : Conv) (last : Ev Unit Unit) (es : List (Ev Unit Unit)) : Bool :=
  match exec t.schema vsU rawU (t.ops last last es) (.mk t.root []) with
  | .ok _ => true
  | .error _ => false

theorem isSample_ev (t : Conv) (k : MKey) (c : List Str) : IsSample t (sampleEv t k c) := ⟨rfl, rfl⟩

theorem sampleEcs2_values : ValuesOk toIlcd vsU rawU (toIlcd.ops endIlcd endIlcd sampleEcs2) ∧
    ValuesComplete toIlcd vsU rawU (toIlcd.ops endIlcd endIlcd sampleEcs2) := by
  refine sample_values (isSample_ev ..) (isSample_ev ..) ?_ (by decide +kernel)
  intro e he
  simp only [sampleEcs2, List.mem_cons, List.not_mem_nil, or_false] at he
  rcases he with rfl | rfl | rfl | rfl | rfl | rfl | rfl | rfl <;> exact isSample_ev ..

theorem sampleIlcd_isSample : ∀ e ∈ sampleIlcd, IsSample toEcs2 e := by
  intro e he
  simp only [sampleIlcd, List.mem_cons, List.not_mem_nil, or_false] at he
  rcases he with rfl | rfl | rfl | rfl | rfl | rfl | rfl | rfl | rfl | rfl | rfl <;> exact isSample_ev ..

theorem sampleIlcd_values : ValuesOk toEcs2 vsU rawU (toEcs2.ops endEcs2 endEcs2 sampleIlcd) ∧
    ValuesComplete toEcs2 vsU rawU (toEcs2.ops endEcs2 endEcs2 sampleIlcd) :=
  sample_values (isSample_ev ..) (isSample_ev ..) sampleIlcd_isSample (by decide +kernel)

theorem sampleElementary_values : ValuesOk toEcs2 vsU rawU (toEcs2.ops endEcs2 endEcs2 sampleElementary) ∧
    ValuesComplete toEcs2 vsU rawU (toEcs2.ops endEcs2 endEcs2 sampleElementary) := by
  refine sample_values (isSample_ev ..) (isSample_ev ..) ?_ (by decide +kernel)
  intro e he
  rw [sampleElementary, List.mem_append, List.mem_singleton] at he
  rcases he with he | rfl
  · exact sampleIlcd_isSample e (List.mem_of_mem_take he)
  · exact isSample_ev ..

/-- Two system models. -/
theorem sampleTwo_values :
    ValuesOk toIlcd vsU rawU (toIlcd.ops endIlcd endIlcd
      (sampleEcs2.take 5 ++ sampleEcs2[5] :: [] ++ sampleEcs2[5] :: sampleEcs2.drop 6)) ∧
    ValuesComplete toIlcd vsU rawU (toIlcd.ops endIlcd endIlcd
      (sampleEcs2.take 5 ++ sampleEcs2[5] :: [] ++ sampleEcs2[5] :: sampleEcs2.drop 6)) := by
  refine sample_values (isSample_ev ..) (isSample_ev ..) ?_ (by decide +kernel)
  intro e he
  simp only [sampleEcs2, List.take, List.drop, List.mem_cons, List.mem_append, List.not_mem_nil, or_false,
    List.getElem_cons_succ, List.getElem_cons_zero] at he
  rcases he with ((rfl | rfl | rfl | rfl | rfl) | rfl) | rfl | rfl | rfl <;> exact isSample_ev ..

/-! ### From EcoSpold 2 to ILCD -/

/-- **C159.** When the computed values are accepted by the fields, an EcoSpold 2 file converts just when
no two of its elements give the same single-valued ILCD field; otherwise the conversion stops with a
ValueError. -/
theorem toIlcd_converts_iff (vs : Validators Str V R O) (asRaw : Arg V R → R) (first last : Ev V R)
    (es : List (Ev V R)) (hes : es ≠ []) (hv : ValuesOk toIlcd vs asRaw (toIlcd.ops first last es))
    (hc : ValuesComplete toIlcd vs asRaw (toIlcd.ops first last es)) :
    ((es.Pairwise fun e e' => ∀ s ∈ ilcdSingles, ¬ (s.By e ∧ s.By e')) ∧
        ∃ n, exec ilcdRoot vs asRaw (toIlcd.ops first last es) (.mk c!"ILCD1Structure" []) = .ok n) ∨
      ((¬ es.Pairwise fun e e' => ∀ s ∈ ilcdSingles, ¬ (s.By e ∧ s.By e')) ∧
        exec ilcdRoot vs asRaw (toIlcd.ops first last es) (.mk c!"ILCD1Structure" []) =
          .error .valueError) := by
  have h := fills_iff_once_each toIlcd.schema vs asRaw toIlcd.root (toIlcd.ops first last es)
    (fits_of_known toIlcd_known vs asRaw first last es hv) (noClash_of toIlcd_clash first last es)
    (fun op ho => (hc op ho).1)
  rw [onceEach_iff toIlcd_singles hes] at h
  simp only [List.not_mem_nil, IsEmpty.forall_iff, implies_true, and_true] at h
  exact h

example : sampleEcs2 ≠ [] ∧ ValuesOk toIlcd vsU rawU (toIlcd.ops endIlcd endIlcd sampleEcs2) ∧
    ValuesComplete toIlcd vsU rawU (toIlcd.ops endIlcd endIlcd sampleEcs2) ∧
    convertsB toIlcd endIlcd sampleEcs2 = true :=
  ⟨by simp [sampleEcs2], sampleEcs2_values.1, sampleEcs2_values.2, by decide +kernel⟩

/-- **C157.** The ILCD data set made of an EcoSpold 2 file can be written just when the file gives the
identifier and the name of the activity, the short name of the geography, and the file attributes. All
four are mandatory in EcoSpold 2. -/
theorem toIlcd_written_iff (vs : Validators Str V R O) (hfin : ∀ v, ∃ o, vs.fin v = .ok o)
    (asRaw : Arg V R → R) (first last : Ev V R) (es : List (Ev V R)) (hes : es ≠ [])
    (hv : ValuesOk toIlcd vs asRaw (toIlcd.ops first last es))
    (hc : ValuesComplete toIlcd vs asRaw (toIlcd.ops first last es)) (n : Node V)
    (h : exec ilcdRoot vs asRaw (toIlcd.ops first last es) (.mk c!"ILCD1Structure" []) = .ok n) :
    (∃ o, getDict ilcdRoot vs n = .ok o) ↔
      HasEcs2 es [c!"activityDescription", c!"activity"] (some c!"id") ∧
      HasEcs2 es [c!"activityDescription", c!"activity", c!"activityName"] none ∧
      HasEcs2 es [c!"activityDescription", c!"geography", c!"shortname"] none ∧
      HasEcs2 es [c!"administrativeInformation", c!"fileAttributes"] none := by
  have hw := written_iff_mandatory toIlcd.schema vs asRaw toIlcd.root hfin (toIlcd.ops first last es)
    (fits_of_known toIlcd_known vs asRaw first last es hv) (noClash_of toIlcd_clash first last es)
    (fun op ho => (hc op ho).1) (fun op ho => (hc op ho).2) n h
  rw [mandatory_iff toIlcd_covered toIlcd_needs hes] at hw
  refine hw.trans ?_
  have key : ∀ p a, (∃ b ∈ ofEcs2 p a none, Delivered es b) ↔ HasEcs2 es p a := by
    intro p a
    simp [ofEcs2, Delivered, HasEcs2]
  simp only [ilcdNeeds, List.forall_mem_cons, Need.Met, List.not_mem_nil, false_and, exists_false,
    or_false, key, IsEmpty.forall_iff, implies_true, and_true]
  exact ⟨fun ⟨a, b, c, d⟩ => ⟨b, c, d, a⟩, fun ⟨b, c, d, a⟩ => ⟨a, b, c, d⟩⟩

/-- The hypotheses hold for the sample and, since it has the four elements, it is written. -/
example : ∃ n, exec ilcdRoot vsU rawU (toIlcd.ops endIlcd endIlcd sampleEcs2) (.mk c!"ILCD1Structure" []) =
    .ok n ∧ ∃ o, getDict ilcdRoot vsU n = .ok o := by
  have hes : sampleEcs2 ≠ [] := by simp [sampleEcs2]
  rcases hx : exec ilcdRoot vsU rawU (toIlcd.ops endIlcd endIlcd sampleEcs2) (.mk c!"ILCD1Structure" [])
    with e | n
  · have : convertsB toIlcd endIlcd sampleEcs2 = true := by decide +kernel
    rw [convertsB] at this
    change (match exec ilcdRoot vsU rawU (toIlcd.ops endIlcd endIlcd sampleEcs2)
      (.mk c!"ILCD1Structure" []) with | .ok _ => true | .error _ => false) = true at this
    rw [hx] at this
    cases this
  · refine ⟨n, rfl, (toIlcd_written_iff vsU (fun _ => ⟨(), rfl⟩) rawU endIlcd endIlcd sampleEcs2 hes
      sampleEcs2_values.1 sampleEcs2_values.2 n hx).2 ⟨?_, ?_, ?_, ?_⟩⟩
    all_goals
      refine ⟨_, .inl rfl, ?_⟩
      simp [sampleEcs2, sampleEv]

/-! ### From ILCD to EcoSpold 2 -/

/-- **C159.** When the computed values are accepted by the fields, an ILCD file converts just when no two
of its elements give the same single-valued EcoSpold 2 field and no source serving as the icon has several
files; otherwise the conversion stops with a ValueError. -/
theorem toEcs2_converts_iff (vs : Validators Str V R O) (asRaw : Arg V R → R) (first last : Ev V R)
    (es : List (Ev V R)) (hes : es ≠ []) (hv : ValuesOk toEcs2 vs asRaw (toEcs2.ops first last es))
    (hc : ValuesComplete toEcs2 vs asRaw (toEcs2.ops first last es)) :
    (((es.Pairwise fun e e' => ∀ s ∈ ecs2Singles, ¬ (s.By e ∧ s.By e')) ∧
          ∀ e ∈ es, ∀ x ∈ ecs2Several, x.One e) ∧
        ∃ n, exec ecs2Root vs asRaw (toEcs2.ops first last es) (.mk c!"ECS2Structure" []) = .ok n) ∨
      (¬ ((es.Pairwise fun e e' => ∀ s ∈ ecs2Singles, ¬ (s.By e ∧ s.By e')) ∧
          ∀ e ∈ es, ∀ x ∈ ecs2Several, x.One e) ∧
        exec ecs2Root vs asRaw (toEcs2.ops first last es) (.mk c!"ECS2Structure" []) =
          .error .valueError) := by
  have h := fills_iff_once_each toEcs2.schema vs asRaw toEcs2.root (toEcs2.ops first last es)
    (fits_of_known toEcs2_known vs asRaw first last es hv) (noClash_of toEcs2_clash first last es)
    (fun op ho => (hc op ho).1)
  rw [onceEach_iff toEcs2_singles hes] at h
  exact h

example : sampleIlcd ≠ [] ∧ ValuesOk toEcs2 vsU rawU (toEcs2.ops endEcs2 endEcs2 sampleIlcd) ∧
    ValuesComplete toEcs2 vsU rawU (toEcs2.ops endEcs2 endEcs2 sampleIlcd) ∧
    convertsB toEcs2 endEcs2 sampleIlcd = true :=
  ⟨by simp [sampleIlcd], sampleIlcd_values.1, sampleIlcd_values.2, by decide +kernel⟩

/-- The needs with repetitions left out. -/
theorem needs_plain (U B L T Tr M F Lo Y W E Ef G Gf C I : Prop) :
    ((U ∧ (B ∨ L) ∧ T ∧ (((B ∨ Tr) ∨ M) ∨ F) ∧ Lo ∧ Lo ∧ Y ∧ W ∧ (E ∨ Ef) ∧ E ∧ (E ∨ Ef) ∧ (G ∨ Gf) ∧ G ∧
      (G ∨ Gf) ∧ C ∧ I ∧ U ∧ (B ∨ L) ∧ Lo ∧ Y ∧ W)) ↔
      U ∧ (B ∨ L ∧ (Tr ∨ M ∨ F)) ∧ T ∧ Lo ∧ Y ∧ W ∧ E ∧ G ∧ C ∧ I := by
  tauto

/-- **C158.** The EcoSpold 2 data set made of an ILCD file can be written just when the file gives all of:
the UUID; the base name, or another part of the name and the mark of the activity name in the general comment;
the type of the data set; the location; reference year and end of validity; a contact with an identifier for data entry
and for generation; the copyright; and an exchange that becomes an intermediate exchange. -/
theorem toEcs2_written_iff (vs : Validators Str V R O) (hfin : ∀ v, ∃ o, vs.fin v = .ok o)
    (asRaw : Arg V R → R) (first last : Ev V R) (es : List (Ev V R)) (hes : es ≠ [])
    (hv : ValuesOk toEcs2 vs asRaw (toEcs2.ops first last es))
    (hc : ValuesComplete toEcs2 vs asRaw (toEcs2.ops first last es))
    (henergy : HasIlcdWith es
        [c!"modellingAndValidation", c!"LCIMethodAndAllocation", c!"modellingConstants"] c!"energy" ∨
      last.has c!"noEnergy" = true) (n : Node V)
    (h : exec ecs2Root vs asRaw (toEcs2.ops first last es) (.mk c!"ECS2Structure" []) = .ok n) :
    (∃ o, getDict ecs2Root vs n = .ok o) ↔
      HasIlcd es [c!"processInformation", c!"dataSetInformation", c!"UUID"] none ∧
      (HasIlcd es [c!"processInformation", c!"dataSetInformation", c!"name", c!"baseName"] none ∨
        HasIlcdWith es [c!"processInformation", c!"dataSetInformation", c!"generalComment"] c!"linkable" ∧
        (HasIlcd es [c!"processInformation", c!"dataSetInformation", c!"name", c!"treatmentStandardsRoutes"] none ∨
         HasIlcd es [c!"processInformation", c!"dataSetInformation", c!"name", c!"mixAndLocationTypes"] none ∨
         HasIlcd es [c!"processInformation", c!"dataSetInformation", c!"name",
          c!"functionalUnitFlowProperties"] none)) ∧
      HasIlcd es [c!"modellingAndValidation", c!"LCIMethodAndAllocation", c!"typeOfDataSet"] none ∧
      HasIlcd es [c!"processInformation", c!"geography", c!"locationOfOperationSupplyOrProduction"]
        (some c!"location") ∧
      HasIlcd es [c!"processInformation", c!"time", c!"referenceYear"] none ∧
      HasIlcd es [c!"processInformation", c!"time", c!"dataSetValidUntil"] none ∧
      HasIlcdWith es [c!"administrativeInformation", c!"dataEntryBy",
        c!"referenceToPersonOrEntityEnteringTheData"] c!"@refObjectId" ∧
      HasIlcdWith es [c!"administrativeInformation", c!"dataGenerator",
        c!"referenceToPersonOrEntityGeneratingTheDataSet"] c!"@refObjectId" ∧
      HasIlcd es [c!"administrativeInformation", c!"publicationAndOwnership", c!"copyright"] none ∧
      HasIlcdWith es [c!"exchanges", c!"exchange"] c!"intermediate" := by
  have hw := written_iff_mandatory toEcs2.schema vs asRaw toEcs2.root hfin (toEcs2.ops first last es)
    (fits_of_known toEcs2_known vs asRaw first last es hv) (noClash_of toEcs2_clash first last es)
    (fun op ho => (hc op ho).1) (fun op ho => (hc op ho).2) n h
  rw [mandatory_iff toEcs2_covered toEcs2_needs hes] at hw
  refine hw.trans ?_
  have key : ∀ p a, (∃ b ∈ ofIlcd p a none, Delivered es b) ↔ HasIlcd es p a := by
    intro p a
    simp [ofIlcd, Delivered, HasIlcd]
  have key' : ∀ p c, (∃ b ∈ ofIlcd p none (some c), Delivered es b) ↔ HasIlcdWith es p c := by
    intro p c
    simp [ofIlcd, Delivered, HasIlcdWith]
  have split : ∀ l l' : List (MKey × Option Str), (∃ b ∈ l ++ l', Delivered es b) ↔
      (∃ b ∈ l, Delivered es b) ∨ ∃ b ∈ l', Delivered es b := by
    intro l l'
    simp only [List.mem_append, or_and_right, exists_or]
  simp only [ecs2Needs, List.forall_mem_cons, Need.Met, split, key, key', List.not_mem_nil, false_and,
    exists_false, or_false, List.mem_singleton, forall_eq, exists_eq_left, henergy, true_and]
  exact needs_plain _ _ _ _ _ _ _ _ _ _ _ _ _ _ _ _

example : endEcs2.has c!"noEnergy" = true ∧
    (match exec ecs2Root vsU rawU (toEcs2.ops endEcs2 endEcs2 sampleIlcd) (.mk c!"ECS2Structure" []) with
      | .ok n => (match getDict ecs2Root vsU n with | .ok _ => true | .error _ => false)
      | .error _ => false) = true := by decide +kernel

/-! ### What follows for a user -/

/-- **C157.** A conversion to ILCD that goes through on a file with the four elements ends with a data set
that is written. -/
theorem toIlcd_complete (vs : Validators Str V R O) (hfin : ∀ v, ∃ o, vs.fin v = .ok o)
    (asRaw : Arg V R → R) (first last : Ev V R) (es : List (Ev V R))
    (hv : ValuesOk toIlcd vs asRaw (toIlcd.ops first last es))
    (hc : ValuesComplete toIlcd vs asRaw (toIlcd.ops first last es))
    (h1 : HasEcs2 es [c!"activityDescription", c!"activity"] (some c!"id"))
    (h2 : HasEcs2 es [c!"activityDescription", c!"activity", c!"activityName"] none)
    (h3 : HasEcs2 es [c!"activityDescription", c!"geography", c!"shortname"] none)
    (h4 : HasEcs2 es [c!"administrativeInformation", c!"fileAttributes"] none)
    (hs : es.Pairwise fun e e' => ∀ s ∈ ilcdSingles, ¬ (s.By e ∧ s.By e')) :
    ∃ n o, exec ilcdRoot vs asRaw (toIlcd.ops first last es) (.mk c!"ILCD1Structure" []) = .ok n ∧
      getDict ilcdRoot vs n = .ok o := by
  have hes : es ≠ [] := by
    rintro rfl
    obtain ⟨_, _, _, he, _⟩ := h1
    cases he
  rcases toIlcd_converts_iff vs asRaw first last es hes hv hc with ⟨_, n, hn⟩ | ⟨hn, _⟩
  · obtain ⟨o, ho⟩ := (toIlcd_written_iff vs hfin asRaw first last es hes hv hc n hn).2 ⟨h1, h2, h3, h4⟩
    exact ⟨n, o, hn, ho⟩
  · exact absurd hs hn

example : HasEcs2 sampleEcs2 [c!"activityDescription", c!"activity"] (some c!"id") ∧
    HasEcs2 sampleEcs2 [c!"activityDescription", c!"activity", c!"activityName"] none ∧
    HasEcs2 sampleEcs2 [c!"activityDescription", c!"geography", c!"shortname"] none ∧
    HasEcs2 sampleEcs2 [c!"administrativeInformation", c!"fileAttributes"] none ∧
    sampleEcs2.Pairwise fun e e' => ∀ s ∈ ilcdSingles, ¬ (s.By e ∧ s.By e') := by
  refine ⟨?_, ?_, ?_, ?_, ?_⟩
  iterate 4 · refine ⟨_, .inl rfl, ?_⟩; simp [sampleEcs2, sampleEv]
  rcases toIlcd_converts_iff vsU rawU endIlcd endIlcd sampleEcs2 (by simp [sampleEcs2])
    sampleEcs2_values.1 sampleEcs2_values.2 with ⟨h, _⟩ | ⟨_, h⟩
  · exact h
  · have : convertsB toIlcd endIlcd sampleEcs2 = true := by decide +kernel
    rw [convertsB] at this
    change (match exec ilcdRoot vsU rawU (toIlcd.ops endIlcd endIlcd sampleEcs2)
      (.mk c!"ILCD1Structure" []) with | .ok _ => true | .error _ => false) = true at this
    rw [h] at this
    cases this

/-- **C159.** Two elements for one single-valued ILCD field stop the conversion, wherever they are in the
file. -/
theorem toIlcd_repeat_stops (vs : Validators Str V R O) (asRaw : Arg V R → R) (first last : Ev V R)
    (a b c : List (Ev V R)) (e e' : Ev V R) (s : Single) (hs : s ∈ ilcdSingles) (he : s.By e)
    (he' : s.By e') (hv : ValuesOk toIlcd vs asRaw (toIlcd.ops first last (a ++ e :: b ++ e' :: c)))
    (hc : ValuesComplete toIlcd vs asRaw (toIlcd.ops first last (a ++ e :: b ++ e' :: c))) :
    exec ilcdRoot vs asRaw (toIlcd.ops first last (a ++ e :: b ++ e' :: c))
      (.mk c!"ILCD1Structure" []) = .error .valueError := by
  rcases toIlcd_converts_iff vs asRaw first last _ (by simp) hv hc with ⟨h, _⟩ | ⟨_, h⟩
  · rw [List.pairwise_append] at h
    exact absurd ⟨he, he'⟩ (h.2.2 e (by simp) e' (by simp) s hs)
  · exact h

/-- **C159.** Two elements for one single-valued EcoSpold 2 field stop the conversion, wherever they are in
the file. -/
theorem toEcs2_repeat_stops (vs : Validators Str V R O) (asRaw : Arg V R → R) (first last : Ev V R)
    (a b c : List (Ev V R)) (e e' : Ev V R) (s : Single) (hs : s ∈ ecs2Singles) (he : s.By e)
    (he' : s.By e') (hv : ValuesOk toEcs2 vs asRaw (toEcs2.ops first last (a ++ e :: b ++ e' :: c)))
    (hc : ValuesComplete toEcs2 vs asRaw (toEcs2.ops first last (a ++ e :: b ++ e' :: c))) :
    exec ecs2Root vs asRaw (toEcs2.ops first last (a ++ e :: b ++ e' :: c))
      (.mk c!"ECS2Structure" []) = .error .valueError := by
  rcases toEcs2_converts_iff vs asRaw first last _ (by simp) hv hc with ⟨⟨h, _⟩, _⟩ | ⟨_, h⟩
  · rw [List.pairwise_append] at h
    exact absurd ⟨he, he'⟩ (h.2.2 e (by simp) e' (by simp) s hs)
  · exact h

example : ∃ s ∈ ecs2Singles, s.By (sampleIlcd[3]'(by decide)) := by
  refine ⟨⟨[c!"activityDescription", c!"timePeriod"], c!"startDate",
    ofIlcd [c!"processInformation", c!"time", c!"referenceYear"] none none⟩, by simp [ecs2Singles], ?_⟩
  exact ⟨_, List.mem_cons_self .., rfl, rfl⟩

/-- **C159.** An EcoSpold 2 data set may name several system models; two of them stop the conversion. -/
theorem two_system_models_stop (vs : Validators Str V R O) (asRaw : Arg V R → R) (first last : Ev V R)
    (a b c : List (Ev V R)) (e e' : Ev V R)
    (he : e.key = ([c!"ecoSpold", c!"activityDataset", c!"modellingAndValidation", c!"representativeness",
      c!"systemModelName"], none))
    (he' : e'.key = ([c!"ecoSpold", c!"activityDataset", c!"modellingAndValidation", c!"representativeness",
      c!"systemModelName"], none))
    (hv : ValuesOk toIlcd vs asRaw (toIlcd.ops first last (a ++ e :: b ++ e' :: c)))
    (hc : ValuesComplete toIlcd vs asRaw (toIlcd.ops first last (a ++ e :: b ++ e' :: c))) :
    exec ilcdRoot vs asRaw (toIlcd.ops first last (a ++ e :: b ++ e' :: c))
      (.mk c!"ILCD1Structure" []) = .error .valueError := by
  refine toIlcd_repeat_stops vs asRaw first last a b c e e'
    ⟨[c!"modellingAndValidation", c!"LCIMethodAndAllocation"], c!"LCIMethodPrinciple",
      ofEcs2 [c!"modellingAndValidation", c!"representativeness", c!"systemModelName"] none none⟩
    ?_ ?_ ?_ hv hc
  · simp [ilcdSingles]
  · exact ⟨_, List.mem_cons_self .., he, rfl⟩
  · exact ⟨_, List.mem_cons_self .., he', rfl⟩

example : exec ilcdRoot vsU rawU (toIlcd.ops endIlcd endIlcd
    (sampleEcs2.take 5 ++ sampleEcs2[5] :: [] ++ sampleEcs2[5] :: sampleEcs2.drop 6))
    (.mk c!"ILCD1Structure" []) = .error .valueError :=
  two_system_models_stop vsU rawU endIlcd endIlcd _ [] _ _ _ rfl rfl sampleTwo_values.1 sampleTwo_values.2

/-- **C158.** An ILCD data set none of whose exchanges becomes an intermediate exchange, such as one with
elementary flows alone, cannot be written as EcoSpold 2. -/
theorem no_intermediate_not_written (vs : Validators Str V R O) (hfin : ∀ v, ∃ o, vs.fin v = .ok o)
    (asRaw : Arg V R → R) (first last : Ev V R) (es : List (Ev V R)) (hes : es ≠ [])
    (hv : ValuesOk toEcs2 vs asRaw (toEcs2.ops first last es))
    (hc : ValuesComplete toEcs2 vs asRaw (toEcs2.ops first last es))
    (hno : ∀ e ∈ es, e.key = ([c!"processDataSet", c!"exchanges", c!"exchange"], none) →
      e.has c!"intermediate" = false) (n : Node V)
    (h : exec ecs2Root vs asRaw (toEcs2.ops first last es) (.mk c!"ECS2Structure" []) = .ok n) :
    ¬ ∃ o, getDict ecs2Root vs n = .ok o := by
  have hw := written_iff_mandatory toEcs2.schema vs asRaw toEcs2.root hfin (toEcs2.ops first last es)
    (fits_of_known toEcs2_known vs asRaw first last es hv) (noClash_of toEcs2_clash first last es)
    (fun op ho => (hc op ho).1) (fun op ho => (hc op ho).2) n h
  rw [mandatory_iff toEcs2_covered toEcs2_needs hes] at hw
  intro ho
  have := hw.1 ho ⟨[c!"flowData"], c!"intermediateExchange",
    ofIlcd [c!"exchanges", c!"exchange"] none (some c!"intermediate"), []⟩ (by simp [ecs2Needs])
  rcases this with ⟨b, hb, e, he, hk, hh⟩ | ⟨c, hc, _⟩
  · rw [ofIlcd, List.mem_singleton] at hb
    subst hb
    rw [Option.all_some, hno e he hk] at hh
    cases hh
  · cases hc

example : (∀ e ∈ sampleElementary, e.key = ([c!"processDataSet", c!"exchanges", c!"exchange"], none) →
      e.has c!"intermediate" = false) ∧ convertsB toEcs2 endEcs2 sampleElementary = true := by
  refine ⟨?_, by decide +kernel⟩
  have : sampleElementary.all (fun e => e.key != ([c!"processDataSet", c!"exchanges", c!"exchange"], none) ||
    !e.has c!"intermediate") = true := by decide +kernel
  rw [List.all_eq_true] at this
  intro e he hk
  have := this e he
  simpa [hk] using this

end Verif.Assign
