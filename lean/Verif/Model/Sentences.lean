/-
Cutting a text into sentences.
Models src/Lavoisier/data_structures/utils.py:13-50 (`split_into_sentences` and its patterns).

The function is a chain of `re.sub` and `str.replace` calls. None of the patterns has a star, so a
pattern is a row of places, each with a list of alternatives tried in order (with a way back), and
every alternative is a row of character classes. The replacement is given place by place: a place is
either kept (`\1`, `\2`, or a character that the replacement repeats) or replaced by a fixed text.
The fixed texts contain the marks `<prd>` and `<stop>`, which are ordinary text to the code and to
the model (`render`).
-/
import Verif.Model.IlcdVars

namespace Verif.Sentences

open IlcdVars (replaceAll)

/-- A piece of a fixed text: a character or one of the two marks of the code. -/
inductive Tok
  | chr (c : Char)
  | prd
  | stop
  deriving DecidableEq, Repr

/-- The text of a piece: the marks are written out, utils.py:28-47. -/
def Tok.text : Tok → Str
  | .chr c => [c]
  | .prd => c!"<prd>"
  | .stop => c!"<stop>"

def render (ts : List Tok) : Str := ts.flatMap Tok.text

/-- The character classes in the patterns, utils.py:13-18: a character, `[A-Za-z]`, `[A-Z]`, `\s`. -/
inductive Cls
  | lit (c : Char)
  | alpha
  | upper
  | space
  deriving DecidableEq, Repr

def isUpper (c : Char) : Bool := 65 ≤ c.toNat && c.toNat ≤ 90

def isAlpha (c : Char) : Bool := isUpper c || (97 ≤ c.toNat && c.toNat ≤ 122)

def Cls.has : Cls → Char → Bool
  | .lit c, x => x == c
  | .alpha, x => isAlpha x
  | .upper, x => isUpper x
  | .space, x => pySpace x

/-- One alternative of a place. -/
abbrev Alt := List Cls

/-- A place of a pattern with what the replacement puts there (`none`: what was read). -/
structure Item where
  alts : List Alt
  put : Option (List Tok)

/-- The text starts with characters of these classes. -/
def fits : Alt → Str → Bool
  | [], _ => true
  | _ :: _, [] => false
  | k :: ks, c :: s => k.has c && fits ks s

/-- What the replacement has for a place where `a` was read. -/
def Item.out (it : Item) (a : Str) : Str :=
  match it.put with
  | none => a
  | some ts => render ts

/-- A match at the start of the text: the number of characters read and their replacement. -/
def matchAt : List Item → Str → Option (Nat × Str)
  | [], _ => some (0, [])
  | it :: its, s =>
    it.alts.findSome? fun alt =>
      if fits alt s then
        (matchAt its (s.drop alt.length)).map fun r =>
          (alt.length + r.1, it.out (s.take alt.length) ++ r.2)
      else none

/-- `re.sub(pattern, replacement, s)`: matches from left to right that do not overlap. The number
counts the characters of the last match that are still to be passed over. -/
def subAux (its : List Item) : Nat → Str → Str
  | _, [] => []
  | k + 1, _ :: s => subAux its k s
  | 0, c :: s =>
    match matchAt its (c :: s) with
    | some (n, o) => o ++ subAux its (n - 1) s
    | none => c :: subAux its 0 s

def sub (its : List Item) (s : Str) : Str := subAux its 0 s

/-- One statement of the chain. `guard` is the text of an `if ... in text:` in front of it. -/
structure Rule where
  guard : Str := []
  items : List Item

def Rule.apply (r : Rule) (s : Str) : Str :=
  if isInfix r.guard s then sub r.items s else s

/-- A fixed text as an alternative. -/
def word (w : Str) : Alt := w.map .lit

/-- A place that is kept. -/
def kept (alts : List Alt) : Item := ⟨alts, none⟩

/-- A place with a fixed text that is replaced. -/
def swap (w : Str) (ts : List Tok) : Item := ⟨[word w], some ts⟩

/-- `prefixes` without the full stop, utils.py:14 -/
def prefixes : List Str := [c!"Mr", c!"St", c!"Mrs", c!"Ms", c!"Dr"]

/-- `suffixes`, utils.py:15 -/
def suffixes : List Str := [c!"Inc", c!"Ltd", c!"Jr", c!"Sr", c!"Co"]

/-- `starters`, utils.py:16: those without and those with a white space after them. -/
def starters : List Alt :=
  [word c!"Mr", word c!"Mrs", word c!"Ms", word c!"Dr"] ++
  ([c!"He", c!"She", c!"It", c!"They", c!"Their", c!"Our", c!"We", c!"But", c!"However", c!"That",
    c!"This"].map fun w => word w ++ [.space]) ++
  [word c!"Wherever"]

/-- `acronyms`, utils.py:17; the third letter is optional and tried first. -/
def acronyms : List Alt :=
  [[.upper, .lit '.', .upper, .lit '.', .upper, .lit '.'], [.upper, .lit '.', .upper, .lit '.']]

/-- `websites` without the full stop, utils.py:18 -/
def websites : List Str := [c!"com", c!"net", c!"org", c!"io", c!"gov"]

/-- A full stop that becomes `<prd>`. -/
def dot : Item := swap c!"." [.prd]

def letter : Item := kept [[.alpha]]

/-- The statements of utils.py:26-45, in their order. -/
def rules : List Rule :=
  [ { items := [swap c!"\n" [.chr ' ']] },                                             -- :26
    { items := [kept (prefixes.map word), dot] },                                      -- :27
    { items := [dot, kept (websites.map word)] },                                      -- :28
    { guard := c!"Ph.D",
      items := [kept [word c!"Ph"], dot, kept [word c!"D"], dot] },                    -- :29
    { items := [⟨[[.space]], some [.chr ' ']⟩, letter, dot, kept [word c!" "]] },      -- :30
    { items := [kept acronyms, swap c!" " [.stop, .chr ' '], kept starters] },         -- :31
    { items := [letter, dot, letter, dot, letter, dot] },                              -- :32
    { items := [letter, dot, letter, dot] },                                           -- :33
    { items := [kept [word c!" "], kept (suffixes.map word), swap c!". " [.stop, .chr ' '],
        kept starters] },                                                              -- :34
    { items := [kept [word c!" "], kept (suffixes.map word), dot] },                   -- :35
    { items := [kept [word c!" "], letter, dot] },                                     -- :36
    { guard := c!"”", items := [swap c!".”" [.chr '”', .chr '.']] },                   -- :37
    { guard := c!"\"", items := [swap c!".\"" [.chr '"', .chr '.']] },                 -- :38
    { guard := c!"!", items := [swap c!"!\"" [.chr '"', .chr '!']] },                  -- :39
    { guard := c!"?", items := [swap c!"?\"" [.chr '"', .chr '?']] },                  -- :40
    { items := [swap c!";" [.chr ';', .stop]] },                                       -- :41
    { items := [swap c!"." [.chr '.', .stop]] },                                       -- :42
    { items := [swap c!"?" [.chr '?', .stop]] },                                       -- :43
    { items := [swap c!"!" [.chr '!', .stop]] } ]                                      -- :44

/-- `s.split(sep)` for a separator of any positive length; `cur` is the piece being read (in
reverse), the number counts the characters of the last separator still to be passed over. -/
def splitAux (sep : Str) : Nat → Str → Str → List Str
  | _, cur, [] => [cur.reverse]
  | k + 1, cur, _ :: s => splitAux sep k cur s
  | 0, cur, c :: s =>
    if startsWith sep (c :: s) then cur.reverse :: splitAux sep (sep.length - 1) [] s
    else splitAux sep 0 (c :: cur) s

def splitStr (sep s : Str) : List Str := splitAux sep 0 [] s

/-- The text after the whole chain, utils.py:25-45. -/
def marked (t : Str) : Str :=
  replaceAll c!"<prd>" c!"."                                                           -- :45
    (rules.foldl (fun s r => r.apply s) (c!" " ++ t ++ c!"  "))                        -- :25

/-- `split_into_sentences(text)`, utils.py:20-50. -/
def sentences (t : Str) : List Str :=
  let l := splitStr c!"<stop>" (marked t)                                              -- :46
  let l := if l.getLast? = some c!"  " then l.dropLast else l                          -- :47
  l.map strip                                                                          -- :48

end Verif.Sentences
