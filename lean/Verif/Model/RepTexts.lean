/-
The texts of an ILCD data set about its method and its data sources, which all go to two fields of EcoSpold2.
Models src/Lavoisier/formats/helpers.py:42-55 (`text_add_index`, `text_dict_from_text`), the entries of the mapping in
src/Lavoisier/conversions/ILCD1_to_ECS2_conversion.py:1760-1764, 1771-1778, 1782-1805 and 1820-1835 for the fields
`samplingProcedure` and `extrapolations` of EcoSpold2, and what is written for them by
ECS2_to_ILCD1_conversion.py:2054-2059, 2203-2206 and 2355-2365.

Simplifications: the running number of `text_add_index` is shared with the texts of other fields; those are elements
`other` that take a number. The values read from the lines `Energy:` and `Original ecoinvent System Model:` are in
`Comments`; only the text left is kept here. Texts of more than 32000 characters are split when written, see
`LangText`.
-/
import Verif.Model.Comments
import Verif.Model.LangText

namespace Verif.RepTexts
open LangText (Entry base validateEntry)

/-- An element with text as it is parsed: a text if it has no attributes, otherwise a dictionary, in which `#text` is
missing if the text is blank. -/
inductive XText where
  | plain (s : Str)
  | tagged (lang : Option Str) (text : Option Str)
  deriving DecidableEq

/-- `x['#text']`: a text is not indexed by a key. -/
def XText.body : XText → Py Str
  | .plain _ => .error .typeError
  | .tagged _ none => .error .keyError
  | .tagged _ (some t) => .ok t

/-- What `text_add_index` returns. -/
structure Out where
  index : Int
  lang : Option Str
  text : Str
  deriving DecidableEq

/-- `text_add_index(x, prefix, index)`, helpers.py:42-49: the running number is taken if no index is given. -/
def textAddIndex (dflt : Option Str) (pre : Str) (index : Option Int) (n : Nat) (x : XText) : Py (Out × Nat) :=
  let i := match index with | some i => i | none => (n : Int)
  let n' := match index with | some _ => n | none => n + 1
  match x with
  | .plain s => .ok (⟨i, some c!"en", pre ++ s⟩, n')
  | .tagged _ none => .error .keyError
  | .tagged l (some t) => .ok (⟨i, (match l with | some l => some l | none => dflt), pre ++ t⟩, n')

/-- The elements of ILCD considered. -/
inductive Field where
  | devMethod | constants | devConstants | cutOff | devCutOff | selection | devSelection | treatment | devTreatment
  | procedure | period | adjustments | advice
  deriving DecidableEq

/-- Their names: the keys of the mapping. -/
def Field.name : Field → Str
  | .devMethod => c!"deviationsFromLCIMethodPrinciple"
  | .constants => c!"modellingConstants"
  | .devConstants => c!"deviationsFromModellingConstants"
  | .cutOff => c!"dataCutOffAndCompletenessPrinciples"
  | .devCutOff => c!"deviationsFromCutOffAndCompletenessPrinciples"
  | .selection => c!"dataSelectionAndCombinationPrinciples"
  | .devSelection => c!"deviationsFromSelectionAndCombinationPrinciples"
  | .treatment => c!"dataTreatmentAndExtrapolationsPrinciples"
  | .devTreatment => c!"deviationsFromTreatmentAndExtrapolationPrinciples"
  | .procedure => c!"samplingProcedure"
  | .period => c!"dataCollectionPeriod"
  | .adjustments => c!"uncertaintyAdjustments"
  | .advice => c!"useAdviceForDataSet"

/-- The two fields of EcoSpold2. -/
inductive Target where
  | sampling | extrapolations
  deriving DecidableEq

def Target.name : Target → Str
  | .sampling => c!"samplingProcedure"
  | .extrapolations => c!"extrapolations"

/-- Which field is set. -/
def Field.target : Field → Target
  | .devMethod => .extrapolations      -- :1761-1764
  | .constants => .sampling            -- :1772-1774
  | .devConstants => .extrapolations   -- :1776-1778
  | .cutOff => .sampling               -- :1783-1785
  | .devCutOff => .extrapolations      -- :1787-1789
  | .selection => .sampling            -- :1791-1793
  | .devSelection => .extrapolations   -- :1795-1797
  | .treatment => .extrapolations      -- :1799-1801
  | .devTreatment => .extrapolations   -- :1803-1805
  | .procedure => .sampling            -- :1821-1823
  | .period => .sampling               -- :1825-1827
  | .adjustments => .sampling          -- :1829-1831
  | .advice => .sampling               -- :1833-1835

/-- The argument `prefix`, same lines. -/
def Field.label : Field → Str
  | .devMethod => c!"Deviations from LCI Method Principles: "
  | .constants => c!"Modelling Constants: "
  | .devConstants => c!"Deviations from Modelling Constants: "
  | .cutOff => c!"Data Cut-Off And Completeness Principles: "
  | .devCutOff => c!"Deviations from Cut-Off and Completeness Principles: "
  | .selection => c!"Data Selection and Combination Principles: "
  | .devSelection => c!"Deviations from Data Selection and Combination Principles: "
  | .treatment => c!"Data Treatment and Extrapolations Principles: "
  | .devTreatment => c!"Deviations from Data Treatment and Extrapolations Principles: "
  | .procedure => []
  | .period => c!"Data Collection Period: "
  | .adjustments => c!"Uncertainty Adjustments: "
  | .advice => c!"Use Advice for Dataset: "

/-- The argument `index`, same lines. -/
def Field.fixed : Field → Option Int
  | .procedure => some 0
  | _ => none

/-- `if x['#text'] != 'none' else None`, same lines. -/
def Field.skips : Field → Bool
  | .devMethod => true
  | .devCutOff => true
  | .devSelection => true
  | .devTreatment => true
  | _ => false

/-- `deviation_comment` and `modelling_constants` (:1614-1629) on the text with its prefix: the text left. -/
def Field.clean (f : Field) (u : Str) : Py Str :=
  match f with
  | .devMethod =>
    .ok (if (Comments.search Comments.modelMatch u).isSome then Comments.remove Comments.modelMatch 0 u else u)
  | .constants =>
    match Comments.getStr .typeError (Tables.inverse Tables.energy) c!"Energy:" u with
    | .ok r => .ok r.2
    | .error e => .error e
  | _ => .ok u

/-- The running number and the two fields of EcoSpold2 (both `String32000`, a multi-language field). -/
structure St where
  number : Nat
  sampling : List Entry
  extrapolations : List Entry
  deriving DecidableEq

def St.get (s : St) : Target → List Entry
  | .sampling => s.sampling
  | .extrapolations => s.extrapolations

/-- The dictionary returned by `text_add_index`. -/
def Out.val (o : Out) : PyVal :=
  .dict [(c!"@index", .int o.index), (c!"@lang", match o.lang with | some l => .str l | none => .none),
    (c!"#text", .str o.text)]

/-- `setattr` of the field, general_validators.py:292-295. -/
def put (n : Nat) (o : Out) (s : St) : Target → Py St
  | .sampling =>
    match LangText.add (base 32000) (validateEntry none) s.sampling o.val with
    | .ok x => .ok ⟨n, x, s.extrapolations⟩
    | .error e => .error e
  | .extrapolations =>
    match LangText.add (base 32000) (validateEntry none) s.extrapolations o.val with
    | .ok x => .ok ⟨n, s.sampling, x⟩
    | .error e => .error e

/-- An element of the document: one of the texts considered, or another one that takes a running number. -/
inductive Ev where
  | text (f : Field) (x : XText)
  | other
  deriving DecidableEq

/-- The text is `none` and the field leaves that out. -/
def Field.left (f : Field) (x : XText) : Py Bool :=
  if f.skips then
    match x.body with
    | .ok t => .ok (t == c!"none")
    | .error e => .error e
  else .ok false

/-- The function of the mapping for an element. -/
def step (dflt : Option Str) (s : St) : Ev → Py St
  | .other => .ok { s with number := s.number + 1 }
  | .text f x =>
    match f.left x with
    | .error e => .error e
    | .ok true => .ok s
    | .ok false =>
      match textAddIndex dflt f.label f.fixed s.number x with
      | .error e => .error e
      | .ok (o, n) =>
        match f.clean o.text with
        | .error e => .error e
        | .ok t => put n { o with text := t } s f.target

/-- The elements in the order of the document. -/
def run (dflt : Option Str) : St → List Ev → Py St
  | s, [] => .ok s
  | s, e :: l =>
    match step dflt s e with
    | .ok s => run dflt s l
    | .error e => .error e

/-! ## The way from EcoSpold2 to ILCD -/

/-- The texts of an EcoSpold2 data set that are concerned: the field `samplingProcedure` and the field
`extrapolations` as language and text, the code of `energyValues` and the name of the system model with its
language. -/
structure Ecs where
  sampling : List (Str × Str)
  extrapolations : List (Str × Str)
  energy : Str
  model : Str × Str

/-- The elements of the ILCD data set written, in the order of the format: ECS2_to_ILCD1_conversion.py:2355-2359 (system
model), 2203-2206 (energy), 2360-2365 (the two fields) and 2054-2059 (the deviations that nothing is said about; that
of the approaches goes to another field of EcoSpold2). -/
def toIlcd (e : Ecs) : List Ev :=
  [.text .devMethod (.tagged (some e.model.1) (some (c!"Original ecoinvent System Model: " ++ e.model.2))),
   .text .constants (.tagged (some c!"en") (some (Comments.energyLine e.energy))),
   .text .devCutOff (.tagged (some c!"en") (some c!"none")),
   .text .devSelection (.tagged (some c!"en") (some c!"none"))] ++
  e.extrapolations.map (fun p => .text .treatment (.tagged (some p.1) (some p.2))) ++
  [.text .devTreatment (.tagged (some c!"en") (some c!"none"))] ++
  e.sampling.map (fun p => .text .procedure (.tagged (some p.1) (some p.2)))

/-- Only the texts considered. -/
def texts (l : List Ev) : List Ev := l.filter fun e => match e with | .text _ _ => true | .other => false

end Verif.RepTexts
