/-
Properties C05 and C06: splitting of over-long texts.
-/
import Verif.Lemmas.TextSplit

namespace Verif.TextSplit

/-! ### C05 Pieces respect the limit -/

/-- C05. For every limit above 50 and every non-empty list of sentences, splitting succeeds and
every piece has at most `limit` characters. -/
theorem pieces_within_limit (limit : Nat) (hl : 50 < limit) (n : List Str) (hn : n ≠ []) :
    ∃ ps, textToList limit n = .ok ps ∧ ∀ p ∈ ps, p.length ≤ limit := by
  cases n with
  | nil => exact absurd rfl hn
  | cons x n =>
    simp only [textToList, List.map_cons]
    split
    · rename_i hmax
      rw [foldl_max_le] at hmax
      refine ⟨_, rfl, optimizeGo_length limit _ [] _ (by simp) (by simp) ?_⟩
      intro y hy
      rcases List.mem_cons.1 hy with rfl | hy
      · omega
      · have := hmax.2 _ (List.mem_map_of_mem hy)
        omega
    · obtain ⟨m, s, h1, h2, h3⟩ :=
        sentenceLoop_length limit hl (x :: n) [] c!"; " (by simp) (by simp)
      rw [h1]
      exact ⟨_, rfl, optimizeGo_length limit s [] m h3 (by simp) h2⟩

/-- C05, on the boundary: with limit 50 an over-long sentence is an error. -/
theorem limit_fifty_fails (n : List Str) (h : ∃ x ∈ n, 50 < x.length) :
    textToList 50 n = .error .valueError := by
  have loop : ∀ (n : List Str) (m : List Str) (s : Str), (∃ x ∈ n, 50 < x.length) →
      sentenceLoop 50 m s n = .error .valueError := by
    intro n
    induction n with
    | nil => rintro m s ⟨x, hx, _⟩; simp at hx
    | cons y n ih =>
      rintro m s ⟨x, hx, hlen⟩
      simp only [sentenceLoop]
      split
      · simp [longSentence]
      · rename_i hy
        apply ih
        rcases List.mem_cons.1 hx with rfl | hx
        · exact absurd hlen (by omega)
        · exact ⟨x, hx, hlen⟩
  obtain ⟨x, hx, hlen⟩ := h
  cases n with
  | nil => simp at hx
  | cons y n =>
    simp only [textToList, List.map_cons]
    rw [if_neg, loop _ _ _ ⟨x, hx, hlen⟩]
    rw [foldl_max_le]
    rintro ⟨h1, h2⟩
    rcases List.mem_cons.1 hx with rfl | hx
    · omega
    · have := h2 _ (List.mem_map_of_mem hx)
      omega

example : ∃ x ∈ ([List.replicate 51 'a'] : List Str), 50 < x.length :=
  ⟨List.replicate 51 'a', List.mem_singleton.2 rfl, by decide⟩

/-! ### C06 No content is lost

Full claim: for all limits and sentences, `textToList limit n = .ok ps` implies
`content ps.flatten = content n.flatten`. It is false of the code. -/

/-- C06 is false for every limit from 52 on: there is a text whose last word disappears. -/
theorem last_word_lost (limit : Nat) (hl : 52 ≤ limit) :
    ∃ n ps, textToList limit n = .ok ps ∧ 'b' ∈ content n.flatten ∧ 'b' ∉ content ps.flatten := by
  have hstep : ∀ (q : Nat) (m : List Str) (s : Str),
      (List.replicate q (List.replicate (limit - 50) 'a')).foldl (chunkStep limit) ⟨m, [], s⟩ =
        ⟨m ++ List.replicate q (List.replicate (limit - 50) 'a'), [], if q = 0 then s else []⟩ := by
    intro q
    induction q with
    | zero => intro m s; simp
    | succ q ih =>
      intro m s
      have hsplit : ∀ k : Nat, splitOn ' ' (List.replicate k 'a') = [List.replicate k 'a'] := by
        intro k
        induction k with
        | zero => rfl
        | succ k ih => simp [List.replicate_succ, splitOn, ih]
      have h1 : chunkStep limit ⟨m, [], s⟩ (List.replicate (limit - 50) 'a') =
          ⟨m ++ [List.replicate (limit - 50) 'a'], [], []⟩ := by
        unfold chunkStep
        have hc : ¬ (limit - 50 > limit) := by omega
        simp only [List.append_nil, List.length_replicate, List.nil_append, if_neg hc]
        simp [hsplit]
      rw [List.replicate_succ, List.foldl_cons, h1, ih]
      simp
  have hch : ∀ (k : Nat) (hk : 2 ≤ k) (q : Nat) (fuel : Nat), q < fuel →
      chunksAux k fuel ((List.replicate q (List.replicate k 'a')).flatten ++ c!" b") =
        List.replicate q (List.replicate k 'a') ++ [c!" b"] := by
    intro k hk q
    induction q with
    | zero =>
      intro fuel hf
      cases fuel with
      | zero => omega
      | succ fuel =>
        have t : (c!" b").take k = c!" b" := List.take_of_length_le (by simpa using hk)
        have d : (c!" b").drop k = [] := List.drop_eq_nil_of_le (by simpa using hk)
        simp only [List.replicate_zero, List.flatten_nil, List.nil_append, chunksAux, t, d]
        cases fuel <;> simp [chunksAux]
    | succ q ih =>
      intro fuel hf
      cases fuel with
      | zero => omega
      | succ fuel =>
        have hne : (List.replicate (q + 1) (List.replicate k 'a')).flatten ++ c!" b" ≠ [] := by simp
        have e : (List.replicate (q + 1) (List.replicate k 'a')).flatten ++ c!" b" =
            List.replicate k 'a' ++ ((List.replicate q (List.replicate k 'a')).flatten ++ c!" b") := by
          rw [List.replicate_succ, List.flatten_cons, List.append_assoc]
        rw [chunksAux, if_neg hne, e, List.take_left' (by simp), List.drop_left' (by simp),
          ih fuel (by omega), List.replicate_succ]
        rfl
  let k := limit - 50
  let x : Str := (List.replicate limit (List.replicate k 'a')).flatten ++ c!" b"
  have hxlen : x.length = limit * k + 2 := by simp [x]
  have hk : 2 ≤ k := by omega
  have hbig : limit < x.length := by
    rw [hxlen]
    have : limit * 1 ≤ limit * k := Nat.mul_le_mul_left limit (by omega)
    omega
  have hlong : sentenceLoop limit [] c!"; " [x] =
      .ok (List.replicate limit (List.replicate k 'a') ++ [[]], []) := by
    simp only [sentenceLoop]
    rw [if_pos (by omega)]
    unfold longSentence
    rw [if_neg (by omega), if_neg (by omega)]
    have hc : chunks (limit - 50) x = List.replicate limit (List.replicate k 'a') ++ [c!" b"] := by
      unfold chunks
      exact hch k hk limit x.length (by omega)
    rw [hc, List.foldl_append, hstep]
    have : (if limit = 0 then c!" " else []) = [] := by rw [if_neg (by omega)]
    rw [this]
    simp only [List.foldl_cons, List.foldl_nil, List.nil_append]
    have hlast : chunkStep limit ⟨List.replicate limit (List.replicate (limit - 50) 'a'), [], []⟩ c!" b"
        = ⟨List.replicate limit (List.replicate (limit - 50) 'a') ++ [[]], c!"b", []⟩ := by
      unfold chunkStep
      have hc : ¬ ((c!" b").length > limit) := by simp; omega
      simp only [List.append_nil, List.nil_append, if_neg hc]
      rfl
    rw [hlast]
  refine ⟨[x], optimize limit (List.replicate limit (List.replicate k 'a') ++ [[]]) [], ?_, ?_, ?_⟩
  · have hlt : ¬ (List.foldl max x.length [] < limit) := by simp only [List.foldl_nil]; omega
    simp only [textToList, List.map_cons, List.map_nil]
    rw [if_neg hlt, hlong]
  · simp [x, content]; decide
  · unfold optimize
    rw [optimizeGo_content limit [] [] _ rfl]
    simp [content]

/-- C06 is false in the extreme for the fields limited to less than 50 characters: a text made of
one sentence over the limit becomes an empty text. -/
theorem short_limit_loses_all (limit : Nat) (hl : limit < 50) (x : Str) (hx : limit < x.length) :
    textToList limit [x] = .ok [[]] := by
  have hlt : ¬ (List.foldl max x.length [] < limit) := by simp only [List.foldl_nil]; omega
  simp only [textToList, List.map_cons, List.map_nil]
  rw [if_neg hlt]
  simp only [sentenceLoop, longSentence]
  rw [if_pos (by omega), if_neg (by omega), if_pos hl]
  rfl

example : (40 : Nat) < 50 ∧ 40 < (List.replicate 41 'a' : Str).length := by decide

/-- C06 (partial: only for texts without a sentence longer than the limit). All the content is
kept, in order, and each sentence is found whole in one of the pieces. -/
theorem content_kept_partial (limit : Nat) (n : List Str) (hn : n ≠ [])
    (h : ∀ x ∈ n, x.length ≤ limit) :
    ∃ ps, textToList limit n = .ok ps ∧ content ps.flatten = content n.flatten ∧
      ∀ x ∈ n, Trimmed x → x ≠ [] → ∃ p ∈ ps, Occurs x p := by
  have main : textToList limit n = .ok (optimize limit n c!"; ") := by
    cases n with
    | nil => exact absurd rfl hn
    | cons x n =>
      simp only [textToList, List.map_cons]
      split
      · rfl
      · rw [sentenceLoop_short limit _ _ _ h]; rfl
  refine ⟨_, main, ?_, ?_⟩
  · unfold optimize
    rw [optimizeGo_content limit _ [] _ (by decide)]
    simp [content]
  · intro x hx ht hne
    exact optimizeGo_occurs limit _ [] n x ht hne hx

example : (∀ x ∈ [c!"First.", c!"Second;"], x.length ≤ 7) ∧ Trimmed c!"First." := by
  constructor
  · decide
  · exact ⟨by intro c h; simp at h; subst h; decide, by intro c h; simp at h; subst h; decide⟩

/-- C06 (partial: for all texts, but one inclusion only). Whatever the limit, splitting invents
nothing and keeps the order: the content of the pieces is the content of the text with, possibly,
characters removed. -/
theorem content_sublist_partial (limit : Nat) (n ps : List Str) (h : textToList limit n = .ok ps) :
    (content ps.flatten).Sublist (content n.flatten) := by
  cases n with
  | nil => simp [textToList] at h
  | cons x n =>
    simp only [textToList, List.map_cons] at h
    split at h
    · cases h
      unfold optimize
      rw [optimizeGo_content limit _ [] _ (by decide)]
      simp [content]
    · split at h
      · cases h
      · rename_i m s hm
        cases h
        obtain ⟨h1, h2⟩ := sentenceLoop_content limit (x :: n) [] c!"; " m s [] (by simp [content])
          (by decide) hm
        unfold optimize
        rw [optimizeGo_content limit s [] m h2]
        simpa [content] using h1

/-- A realistic case for an 80 character field: words are glued and "easil" is lost. -/
example : textToList 80 [c!"This is a very long sentence that is longer than eighty characters, as one can count easily"]
    = .ok [c!"This is a very long sentencethat is longer than eighty", c!"characters, as one can county"] := by
  decide

end Verif.TextSplit
