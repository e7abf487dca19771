/-
Property C05 for every limit, and property C06 for the limits below 50: what becomes of a text that
is split.
-/
import Verif.Props.TextSplit

namespace Verif.TextSplit

/-- Below 50 the sentences over the limit are left out and the others are taken as they are. -/
theorem sentenceLoop_below (limit : Nat) (hl : limit < 50) (n m : List Str) (s : Str)
    (hs : s = c!"; " ∨ s = c!" ") : ∃ s', (s' = c!"; " ∨ s' = c!" ") ∧
      sentenceLoop limit m s n = .ok (m ++ n.filter (fun x => x.length ≤ limit), s') := by
  induction n generalizing m s with
  | nil => exact ⟨s, hs, by simp [sentenceLoop]⟩
  | cons x n ih =>
    simp only [sentenceLoop]
    by_cases hx : limit < x.length
    · rw [if_pos hx]
      unfold longSentence
      rw [if_neg (by omega), if_pos hl]
      obtain ⟨s', h1, h2⟩ := ih m c!" " (.inr rfl)
      refine ⟨s', h1, ?_⟩
      rw [List.filter_cons_of_neg (by simpa using hx)]
      exact h2
    · rw [if_neg hx]
      obtain ⟨s', h1, h2⟩ := ih (m ++ [x]) s hs
      refine ⟨s', h1, ?_⟩
      rw [List.filter_cons_of_pos (by simpa using hx), h2]
      simp

/-- Either no sentence reaches the limit, or the loop over the sentences is run. -/
theorem textToList_cases (limit : Nat) (n : List Str) (hn : n ≠ []) :
    ((∀ x ∈ n, x.length ≤ limit) ∧ textToList limit n = .ok (optimize limit n c!"; ")) ∨
    textToList limit n = match sentenceLoop limit [] c!"; " n with
      | .error e => .error e
      | .ok (m, s) => .ok (optimize limit m s) := by
  cases n with
  | nil => exact absurd rfl hn
  | cons x n =>
    by_cases h : (n.map List.length).foldl max x.length < limit
    · left
      refine ⟨?_, by simp only [textToList, List.map_cons]; rw [if_pos h]⟩
      rw [foldl_max_le] at h
      intro y hy
      rcases List.mem_cons.1 hy with rfl | hy
      · omega
      · have := h.2 _ (List.mem_map_of_mem hy)
        omega
    · right
      simp only [textToList, List.map_cons]
      rw [if_neg h]
      split <;> simp_all

/-- C06 for the limits below 50, exactly: a text with sentences is split into pieces that hold the
content of the sentences within the limit, in order, and nothing of the others. -/
theorem short_limit_kept (limit : Nat) (hl : limit < 50) (n : List Str) (hn : n ≠ []) :
    ∃ ps, textToList limit n = .ok ps ∧ (∀ p ∈ ps, p.length ≤ limit) ∧
      content ps.flatten = content (n.filter (fun x => x.length ≤ limit)).flatten := by
  rcases textToList_cases limit n hn with ⟨h1, h2⟩ | h
  · refine ⟨_, h2, optimizeGo_length limit _ [] _ (by simp) (by simp) h1, ?_⟩
    unfold optimize
    rw [optimizeGo_content limit _ [] _ (by decide),
      List.filter_eq_self.2 (fun x hx => by simpa using h1 x hx)]
    simp [content]
  · obtain ⟨s, hs, he⟩ := sentenceLoop_below limit hl n [] c!"; " (.inl rfl)
    rw [he] at h
    refine ⟨_, h, optimizeGo_length limit s [] _ ?_ (by simp) ?_, ?_⟩
    · rcases hs with rfl | rfl <;> decide
    · intro x hx
      simpa using (List.mem_filter.1 hx).2
    · show content (optimizeGo limit s [] _).flatten = _
      rw [optimizeGo_content limit s [] _ (by rcases hs with rfl | rfl <;> decide)]
      simp [content]

example : (20 : Nat) < 50 ∧ [c!"A short one.", c!"One that is much longer than that."] ≠ [] ∧
    textToList 20 [c!"A short one.", c!"One that is much longer than that."] =
      .ok [c!"A short one."] := by decide

/-- C05 for every limit and every text, exactly: the text is split into pieces within the limit,
unless the limit is 50 and a sentence is longer, when the conversion stops. -/
theorem split_within_limit_iff (limit : Nat) (n : List Str) (hn : n ≠ []) :
    (∃ ps, textToList limit n = .ok ps ∧ ∀ p ∈ ps, p.length ≤ limit) ↔
      ¬ (limit = 50 ∧ ∃ x ∈ n, 50 < x.length) := by
  constructor
  · rintro ⟨ps, h, -⟩ ⟨rfl, hx⟩
    rw [limit_fifty_fails n hx] at h
    cases h
  · intro h
    rcases Nat.lt_trichotomy limit 50 with hl | rfl | hl
    · obtain ⟨ps, h1, h2, -⟩ := short_limit_kept limit hl n hn
      exact ⟨ps, h1, h2⟩
    · have hs : ∀ x ∈ n, x.length ≤ 50 := by
        intro x hx
        exact Nat.le_of_not_lt fun hc => h ⟨rfl, x, hx, hc⟩
      rcases textToList_cases 50 n hn with ⟨h1, h2⟩ | h'
      · exact ⟨_, h2, optimizeGo_length 50 _ [] _ (by simp) (by simp) h1⟩
      · rw [sentenceLoop_short 50 _ _ _ hs] at h'
        refine ⟨_, h', optimizeGo_length 50 _ [] _ (by simp) (by simp) ?_⟩
        simpa using hs
    · exact pieces_within_limit limit hl n hn

example : [c!"One."] ≠ [] ∧ ¬ ((50 : Nat) = 50 ∧ ∃ x ∈ [c!"One."], 50 < x.length) := by decide

/-- C06 for the limits below 50: nothing is lost exactly if no sentence with content is over the
limit. -/
theorem short_limit_loss_iff (limit : Nat) (hl : limit < 50) (n ps : List Str)
    (h : textToList limit n = .ok ps) :
    content ps.flatten = content n.flatten ↔ ∀ x ∈ n, limit < x.length → content x = [] := by
  have hn : n ≠ [] := by
    rintro rfl
    simp [textToList] at h
  obtain ⟨ps', h1, -, h2⟩ := short_limit_kept limit hl n hn
  rw [h] at h1
  cases h1
  rw [h2]
  clear h h2 hn ps
  have hle : ∀ n : List Str, (content (n.filter (fun x => x.length ≤ limit)).flatten).length ≤
      (content n.flatten).length := by
    intro n
    induction n with
    | nil => simp
    | cons x n ih =>
      by_cases hx : x.length ≤ limit
      · rw [List.filter_cons_of_pos (by simpa using hx), content_flatten_cons, content_flatten_cons]
        simpa using ih
      · rw [List.filter_cons_of_neg (by simpa using hx), content_flatten_cons]
        simp only [List.length_append]
        omega
  induction n with
  | nil => simp
  | cons x n ih =>
    by_cases hx : x.length ≤ limit
    · rw [List.filter_cons_of_pos (by simpa using hx), content_flatten_cons, content_flatten_cons,
        List.append_cancel_left_eq]
      simp only [List.forall_mem_cons]
      exact ⟨fun he => ⟨fun h' => absurd h' (by omega), ih.1 he⟩, fun hr => ih.2 hr.2⟩
    · rw [List.filter_cons_of_neg (by simpa using hx), content_flatten_cons]
      simp only [List.forall_mem_cons]
      constructor
      · intro he
        have hc : content x = [] := by
          have := congrArg List.length he
          simp only [List.length_append] at this
          have := hle n
          exact List.eq_nil_of_length_eq_zero (by omega)
        rw [hc, List.nil_append] at he
        exact ⟨fun _ => hc, ih.1 he⟩
      · rintro ⟨hc, hr⟩
        rw [hc (by omega), List.nil_append]
        exact ih.2 hr

example : textToList 20 [c!"A short one."] = .ok [c!"A short one."] := by decide

end Verif.TextSplit
