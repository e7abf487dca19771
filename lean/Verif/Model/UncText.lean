/-
The texts of an uncertainty: pedigree scores, basic variance, comments and the distributions that ILCD does not know.
Models the comments written by src/Lavoisier/conversions/ECS2_to_ILCD1_conversion.py:71-101, 165-171, 185-192
(`ECS2ToILCD1UncertaintyConversion`) into the comment of an exchange (:945-954, data_structures/ILCD1_structure.py:453),
and their reading by src/Lavoisier/conversions/ILCD1_to_ECS2_conversion.py:63-90, 112-139, 160-172
(`ILCD1ToECS2UncertaintyConversion`). The joining of the texts is the one of Model/LangText.lean.

Simplifications: `float` and the writing of a float are parameters. The comparison of the variances (:86-90) only writes a
warning and is left out, but not the errors of the values it reads. The calculation with the numbers is in
Model/Uncertainty.lean.
-/
import Verif.Model.LangText
import Verif.Model.Sentences
import Verif.Model.Assoc

namespace Verif.UncText
open LangText (Entry TextCls notBlank addMerged byLang endMulti)
open IlcdVars (replaceAll)
open Sentences (splitStr)

/-! ## EcoSpold2 to ILCD -/

/-- The element `uncertainty`: the distribution and its attributes, the attributes of the pedigree matrix in the order of
the document (none without it), and the comments (language and text). -/
structure Unc where
  kind : Str
  attrs : List (Str × Str)
  pedigree : List (Str × Str)
  comments : List (Str × Str)

/-- The attributes of the pedigree matrix that have a row in the table `pedigree` (data.py:202-208) after the changes of
the name, ECS2_to_ILCD1_conversion.py:84-85. -/
def scoreNames : List Str :=
  [c!"@reliability", c!"@completeness", c!"@temporalCorrelation", c!"@geographicalCorrelation",
   c!"@furtherTechnologyCorrelation"]

/-- `pedigree[...][int(v)-1]`, :84-85: rows have five values, and a negative index counts from the end. -/
def checkScore (int : Str → Option Int) (p : Str × Str) : Py Unit :=
  if p.1 ∈ scoreNames then
    match int p.2 with
    | none => .error .valueError
    | some n => if -5 ≤ n - 1 ∧ n - 1 ≤ 4 then .ok () else .error .indexError
  else .error .keyError

def checkScores (int : Str → Option Int) : List (Str × Str) → Py Unit
  | [] => .ok ()
  | p :: l =>
    match checkScore int p with
    | .error e => .error e
    | .ok _ => checkScores int l

/-- `"Pedigree: ("+','.join(unc['pedigreeMatrix'].values())+")"`, :78. -/
def pedigreeText (l : List (Str × Str)) : Str := c!"Pedigree: (" ++ join c!"," (l.map (·.2)) ++ c!")"

/-- `float(self._d[key])` written into a text, :187-190. -/
def number (num : Str → Option Str) (attrs : List (Str × Str)) (key : Str) : Py Str :=
  match aget key attrs with
  | none => .error .keyError
  | some x =>
    match num x with
    | none => .error .valueError
    | some t => .ok t

/-- `self._d[key]`. -/
def plain (attrs : List (Str × Str)) (key : Str) : Py Str :=
  match aget key attrs with
  | none => .error .keyError
  | some x => .ok x

/-- `name=value`, the values separated by a comma and a blank, :187-190. -/
def paramText (ps : List (Str × Str)) : Str := join c!", " (ps.map fun p => p.1 ++ c!"=" ++ p.2)

/-- `"\nNot Converted: … distribution with parameters …"`, :187-190. -/
def otherLine (name : Str) (ps : List (Str × Str)) : Str :=
  c!"\nNot Converted: " ++ name ++ c!" distribution with parameters " ++ paramText ps

/-- The parameters of the distributions that are written as text, :185-192: name of the distribution, and name and text
of each parameter. -/
def otherParams (num : Str → Option Str) (kind : Str) (attrs : List (Str × Str)) : Py (Option (Str × List (Str × Str))) :=
  if kind = c!"beta" then
    match number num attrs c!"@minValue", number num attrs c!"@mostLikelyValue", number num attrs c!"@maxValue" with
    | .ok a, .ok b, .ok c => .ok (some (c!"Beta", [(c!"minValue", a), (c!"mostLikelyValue", b), (c!"maxValue", c)]))
    | .error e, _, _ => .error e
    | _, .error e, _ => .error e
    | _, _, .error e => .error e
  else if kind = c!"gamma" then
    match number num attrs c!"@shape", number num attrs c!"@scale", number num attrs c!"@minValue" with
    | .ok a, .ok b, .ok c => .ok (some (c!"Gamma", [(c!"shape", a), (c!"scale", b), (c!"minValue", c)]))
    | .error e, _, _ => .error e
    | _, .error e, _ => .error e
    | _, _, .error e => .error e
  else if kind = c!"binomial" then
    match plain attrs c!"@n", number num attrs c!"@p" with
    | .ok a, .ok b => .ok (some (c!"Binomial", [(c!"n", a), (c!"p", b)]))
    | .error e, _ => .error e
    | _, .error e => .error e
  else if kind = c!"undefined" then
    match number num attrs c!"@minValue", number num attrs c!"@standardDeviation95", number num attrs c!"@maxValue" with
    | .ok a, .ok b, .ok c =>
      .ok (some (c!"Undefined", [(c!"minValue", a), (c!"standardDeviation95", b), (c!"maxValue", c)]))
    | .error e, _, _ => .error e
    | _, .error e, _ => .error e
    | _, _, .error e => .error e
  else .ok none

/-- The basic variance of the distribution, if it is given and not empty, :79. -/
def variance (u : Unc) : Option Str :=
  match aget c!"@variance" u.attrs with
  | some v => if v = [] then none else some v
  | none => none

/-- The texts of the pedigree matrix, :76-81. Both have the index 898. -/
def pedigreeEntries (u : Unc) : List Entry :=
  if u.pedigree = [] then []
  else ⟨898, c!"en", pedigreeText u.pedigree⟩ ::
    match variance u with
    | some v => [⟨898, c!"en", c!"Basic Variance: " ++ v⟩]
    | none => []

/-- The comments, `index=801+i`, :91-92. -/
def commentEntries : Int → List (Str × Str) → List Entry
  | _, [] => []
  | i, (l, t) :: cs => ⟨i, l, t⟩ :: commentEntries (i + 1) cs

/-- The text of another distribution, :93-95. -/
def otherEntries : Option (Str × List (Str × Str)) → List Entry
  | some (n, ps) => [⟨899, c!"en", otherLine n ps⟩]
  | none => []

/-- The heading in front, :96-98. -/
def headed : List Entry → List Entry
  | [] => []
  | e :: l => ⟨800, c!"en", c!"Uncertainty Comment:"⟩ :: e :: l

/-- The values read for the comparison of the variances, :82-86. -/
def checkPedigree (int : Str → Option Int) (num : Str → Option Str) (u : Unc) : Py Unit :=
  if u.pedigree = [] then .ok ()
  else
    match variance u with
    | none => .ok ()
    | some v =>
      match checkScores int u.pedigree with
      | .error e => .error e
      | .ok _ =>
        match num v with
        | none => .error .valueError
        | some _ =>
          match number num u.attrs c!"@varianceWithPedigreeUncertainty" with
          | .error e => .error e
          | .ok _ => .ok ()

/-- The comments of the uncertainty, :71-98. -/
def uncEntries (int : Str → Option Int) (num : Str → Option Str) (u : Unc) : Py (List Entry) :=
  match checkPedigree int num u with
  | .error e => .error e
  | .ok _ =>
    match otherParams num u.kind u.attrs with
    | .error e => .error e
    | .ok o => .ok (headed (pedigreeEntries u ++ commentEntries 801 u.comments ++ otherEntries o))

/-- The class of the comment of an exchange, ILCD1_structure.py:453: at most 500 characters, texts with the same index are
joined with a semicolon. -/
def commentCls : TextCls := ⟨some c!"; ", some (.range 1 500), true⟩

/-- The entries of the comment: those of the exchange (:945-949) first, then those of the uncertainty (:166-167); blank
texts are left out. -/
def entries (general unc : List Entry) : List Entry := (general ++ unc).filter fun e => notBlank e.text

/-- The comment of the exchange as it is written: language and text. -/
def written (ignore : Bool) (sent : Str → List Str) (general unc : List Entry) : Py (List (Str × Str)) :=
  endMulti commentCls ignore sent (addMerged commentCls [] (entries general unc))

/-! ## ILCD to EcoSpold2 -/

/-- `'Uncertainty Comment:\n'`, ILCD1_to_ECS2_conversion.py:72. -/
def marker : Str := c!"Uncertainty Comment:\n"

/-- `re.search`: the first place where the pattern matches; the text matched and its group. -/
def searchFirst (m : Str → Option (Str × Str)) : Str → Option (Str × Str)
  | [] => m []
  | c :: s =>
    match m (c :: s) with
    | some r => some r
    | none => searchFirst m s

/-- `[0-9]`. -/
def digit (c : Char) : Bool := '0' ≤ c && c ≤ '9'

/-- `[0-9]{1},[0-9]{1},[0-9]{1},[0-9]{1},[0-9]{1}`. -/
def fiveScores : Str → Bool
  | [a, ',', b, ',', c, ',', d, ',', e] => digit a && digit b && digit c && digit d && digit e
  | _ => false

/-- `(Pedigree: \(([0-9]{1},…)\))`, :76-77. -/
def pedigreeAt (s : Str) : Option (Str × Str) :=
  if startsWith c!"Pedigree: (" s ∧ fiveScores ((s.drop 11).take 9) ∧ startsWith c!")" (s.drop 20) then
    some (s.take 21, (s.drop 11).take 9)
  else none

/-- `[0-9\.]`. -/
def numChar (c : Char) : Bool := digit c || c = '.'

/-- `(Basic Variance: ([0-9\.]+))`, :81. -/
def varianceAt (s : Str) : Option (Str × Str) :=
  if startsWith c!"Basic Variance: " s ∧ (s.drop 16).takeWhile numChar ≠ [] then
    some (c!"Basic Variance: " ++ (s.drop 16).takeWhile numChar, (s.drop 16).takeWhile numChar)
  else none

/-- The object filled by `normal_init`. -/
structure Read (F : Type) where
  pedigree : Option Str
  var : Option F
  comments : List (Str × Str)
  deriving DecidableEq

/-- The part of `normal_init` for the pedigree, :74-79. -/
def readPedigree (old : Option Str) (c : Str) : Py (Str × Option Str) :=
  if isInfix c!"Pedigree: (" c then
    match searchFirst pedigreeAt c with
    | none => .error .attributeError
    | some (g0, g1) => .ok (replaceAll g0 [] c, some g1)
  else .ok (c, old)

/-- The part of `normal_init` for the basic variance, :80-83. -/
def readVariance {F : Type} (float : Str → Option F) (old : Option F) (c : Str) : Py (Str × Option F) :=
  if isInfix c!"Basic Variance: " c then
    match searchFirst varianceAt c with
    | none => .error .attributeError
    | some (g0, g1) =>
      match float g1 with
      | none => .error .valueError
      | some f => .ok (replaceAll g0 [] c, some f)
  else .ok (c, old)

/-- The loop of `normal_init` for one comment (language and text), :71-86. -/
def readComment {F : Type} (float : Str → Option F) (st : Read F) (c : Str × Str) : Py (Read F) :=
  if isInfix marker c.2 then
    match readPedigree st.pedigree ((splitStr marker c.2).getLastD []) with
    | .error e => .error e
    | .ok (c1, ped) =>
      match readVariance float st.var c1 with
      | .error e => .error e
      | .ok (c2, var) => .ok ⟨ped, var, if notBlank c2 then st.comments ++ [(c.1, c2)] else st.comments⟩
  else .ok st

def readComments {F : Type} (float : Str → Option F) : Read F → List (Str × Str) → Py (Read F)
  | st, [] => .ok st
  | st, c :: cs =>
    match readComment float st c with
    | .error e => .error e
    | .ok st => readComments float st cs

/-- `p_index`, :134-135. -/
def scoreFields : List Str :=
  [c!"reliability", c!"completeness", c!"temporalCorrelation", c!"geographicalCorrelation",
   c!"furtherTechnologyCorrelation"]

/-- The scores are assigned by their place, :136-137. -/
def assignScores (t : Str) : List (Str × Str) := scoreFields.zip (splitOn ',' t)

/-- `[A-z]`. -/
def azChar (c : Char) : Bool := 'A' ≤ c && c ≤ 'z'

/-- `'\nNot Converted: [A-z]+ distribution with parameters (.*)'`, :115-122. -/
def otherAt (s : Str) : Option (Str × Str) :=
  if startsWith c!"\nNot Converted: " s then
    let r := s.drop 16
    let w := r.takeWhile azChar
    if w ≠ [] ∧ startsWith c!" distribution with parameters " (r.drop w.length) then
      let g := ((r.drop w.length).drop 30).takeWhile fun c => c != '\n'
      some ([], g)
    else none
  else none

/-- One parameter, :125-126. -/
def readParam (n : Str) : Py (Str × Str) :=
  match splitOn '=' n with
  | a :: b :: _ => .ok (replaceAll c!" " c!"_" (strip a), strip b)
  | _ => .error .indexError

/-- The loop over the parameters: attributes of the object. -/
def readParams : List (Str × Str) → List Str → Py (List (Str × Str))
  | d, [] => .ok d
  | d, n :: l =>
    match readParam n with
    | .error e => .error e
    | .ok p => readParams (aset p.1 p.2 d) l

/-- `init_from_comment`, :112-131: the attributes of the object, if there is one. -/
def initFromComment : List (Str × Str) → Py (Option (List (Str × Str)))
  | [] => .ok none
  | c :: cs =>
    match searchFirst otherAt c.2 with
    | none => initFromComment cs
    | some (_, g) =>
      if isInfix c!"=" g then
        match readParams [] (splitOn ',' g) with
        | .error e => .error e
        | .ok d => .ok (some d)
      else .ok none

/-- `setattr(field, '@'+x, float(getattr(self, x)))`, :161-172. -/
def setFloats {F : Type} (float : Str → Option F) (d : List (Str × Str)) : List Str → Py (List (Str × F))
  | [] => .ok []
  | x :: l =>
    match aget x d with
    | none => .error .attributeError
    | some t =>
      match float t with
      | none => .error .valueError
      | some f =>
        match setFloats float d l with
        | .error e => .error e
        | .ok r => .ok ((x, f) :: r)

/-- Has the object an attribute of this name? -/
def has (d : List (Str × Str)) (x : Str) : Bool := (aget x d).isSome

/-- The last branch of `calculate`, :160-172: the distribution and its attributes. -/
def calculateOther {F : Type} (float : Str → Option F) (d : List (Str × Str)) : Py (Option (Str × List (Str × F))) :=
  if has d c!"n" then (setFloats float d [c!"n", c!"p"]).map fun l => some (c!"binomial", l)
  else if has d c!"shape" then (setFloats float d [c!"shape", c!"scale", c!"minValue"]).map fun l => some (c!"gamma", l)
  else if has d c!"mostLikelyValue" then
    (setFloats float d [c!"minValue", c!"mostLikelyValue", c!"maxValue"]).map fun l => some (c!"beta", l)
  else if has d c!"standardDeviation95" then
    (setFloats float d [c!"minValue", c!"standardDeviation95", c!"maxValue"]).map fun l => some (c!"undefined", l)
  else .ok none

end Verif.UncText
