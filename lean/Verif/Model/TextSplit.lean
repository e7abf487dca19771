/-
Splitting of texts that exceed the limit of a field.
Models src/Lavoisier/data_structures/utils.py:52-87 (`text_to_list`).

The model starts from the list `n` of sentences that `split_into_sentences` returns (line 66), which
is arbitrary here; `Model/Sentences.lean` models how they are found.
-/
import Verif.Py

namespace Verif.TextSplit

/-- The inner generator `optimize(n, s)`, utils.py:53-65. `f` is the piece being assembled. -/
def optimizeGo (limit : Nat) (s : Str) : Str → List Str → List Str
  | f, [] => [strip f]                                                   -- :65
  | f, x :: n =>
    if f = [] then optimizeGo limit s x n                                -- :56-57
    else if (f ++ c!"; " ++ x).length > limit then                       -- :58-60
      strip f :: optimizeGo limit s x n
    else if isSpaceStr x then optimizeGo limit s f n                     -- :62
    else if endsWith c!"." (strip f) || endsWith c!";" (strip f) then    -- :63
      optimizeGo limit s (f ++ c!" " ++ x) n
    else optimizeGo limit s (f ++ s ++ x) n                              -- :64

def optimize (limit : Nat) (n : List Str) (s : Str) : List Str := optimizeGo limit s [] n

/-- The slices `x[i:i+k]` for `i in range(0, len(x), k)`, with `k ≥ 1`. `fuel` bounds the number
of slices; the length of `x` is always enough. -/
def chunksAux (k : Nat) : Nat → Str → List Str
  | 0, _ => []
  | fuel + 1, x => if x = [] then [] else x.take k :: chunksAux k fuel (x.drop k)

def chunks (k : Nat) (x : Str) : List Str := chunksAux k x.length x

/-- State of the loop over the slices of one sentence: pieces so far, carried word, separator. -/
structure St where
  m : List Str
  b : Str
  s : Str

/-- One round of the loop at utils.py:74-84 for the slice `ch`. -/
def chunkStep (limit : Nat) (st : St) (ch : Str) : St :=
  let (m, c) :=
    if (ch ++ st.b).length > limit then (st.m ++ [st.b], splitOn ' ' ch)     -- :75-77
    else (st.m, splitOn ' ' (st.b ++ ch))                                    -- :78-79
  if c.dropLast.length > 0 then                                              -- :80-81, 84
    { m := m ++ [join c!" " c.dropLast], b := c.getLastD [], s := st.s }     -- c is not empty
  else { m := m ++ [ch], b := [], s := [] }                                  -- :82-84

/-- The branch of `text_to_list` for an over-long sentence, utils.py:72-84: the carried word `b`
is dropped when the loop ends. A step of zero is a ValueError, a negative step an empty range. -/
def longSentence (limit : Nat) (m : List Str) (x : Str) : Py (List Str × Str) :=
  if limit = 50 then .error .valueError
  else if limit < 50 then .ok (m, c!" ")
  else
    let st := (chunks (limit - 50) x).foldl (chunkStep limit) { m := m, b := [], s := c!" " }
    .ok (st.m, st.s)

/-- The loop over the sentences, utils.py:71-86. -/
def sentenceLoop (limit : Nat) : List Str → Str → List Str → Py (List Str × Str)
  | m, s, [] => .ok (m, s)
  | m, s, x :: n =>
    if x.length > limit then
      match longSentence limit m x with
      | .error e => .error e
      | .ok (m', s') => sentenceLoop limit m' s' n
    else sentenceLoop limit (m ++ [x]) s n

/-- `text_to_list(text, limit)`, utils.py:52-87, for the sentences `n` of the text. -/
def textToList (limit : Nat) (n : List Str) : Py (List Str) :=
  match n.map List.length with
  | [] => .error .valueError                                              -- max([]), :67
  | l :: ls =>
    if (ls.foldl max l) < limit then .ok (optimize limit n c!"; ")        -- :67-68
    else
      match sentenceLoop limit [] c!"; " n with                          -- :70-86
      | .error e => .error e
      | .ok (m, s) => .ok (optimize limit m s)                           -- :87

end Verif.TextSplit
