import Verif.Model.TextSplit
import Verif.Spec.TextSplit
import Verif.Lemmas.Py

namespace Verif.TextSplit

theorem content_append (a b : Str) : content (a ++ b) = content a ++ content b := by
  simp [content]

theorem content_dropWhile (s : Str) : content (s.dropWhile pySpace) = content s := by
  induction s with
  | nil => rfl
  | cons c s ih =>
    simp only [List.dropWhile]
    split
    · rename_i h
      have hk : keepChar c = false := by simp [keepChar, h]
      rw [ih]; simp [content, hk]
    · rfl

theorem content_reverse (s : Str) : content s.reverse = (content s).reverse := by
  simp [content]

theorem content_strip (s : Str) : content (strip s) = content s := by
  unfold strip rstrip lstrip
  rw [content_reverse, content_dropWhile, content_reverse, List.reverse_reverse, content_dropWhile]

theorem content_of_isSpace {x : Str} (h : isSpaceStr x = true) : content x = [] := by
  simp only [isSpaceStr, Bool.and_eq_true, List.all_eq_true] at h
  simp only [content, List.filter_eq_nil_iff]
  intro c hc
  simp [keepChar, h.2 c hc]

theorem content_flatten_cons (x : Str) (l : List Str) :
    content (x :: l).flatten = content x ++ content l.flatten := by
  simp [content_append]

theorem optimizeGo_content (limit : Nat) (s f : Str) (n : List Str) (hs : content s = []) :
    content (optimizeGo limit s f n).flatten = content f ++ content n.flatten := by
  induction n generalizing f with
  | nil =>
    show content [strip f].flatten = _
    rw [List.flatten_singleton, content_strip]
    simp [content]
  | cons x n ih =>
    simp only [optimizeGo]
    split
    · rename_i hf
      subst hf
      rw [ih, content_flatten_cons]; simp [content]
    · split
      · rw [content_flatten_cons, content_strip, ih, content_flatten_cons]
      · split
        · rename_i hx
          rw [ih, content_flatten_cons, content_of_isSpace hx]; simp
        · split
          · rw [ih, content_flatten_cons, content_append, content_append]
            rw [show content c!" " = [] by decide]; simp
          · rw [ih, content_flatten_cons, content_append, content_append, hs]; simp

theorem optimizeGo_length (limit : Nat) (s f : Str) (n : List Str) (hs : s.length ≤ 2)
    (hf : f.length ≤ limit) (hn : ∀ x ∈ n, x.length ≤ limit) :
    ∀ p ∈ optimizeGo limit s f n, p.length ≤ limit := by
  induction n generalizing f with
  | nil =>
    intro p hp
    simp only [optimizeGo, List.mem_singleton] at hp
    subst hp
    exact Nat.le_trans (strip_length_le f) hf
  | cons x n ih =>
    have hx := hn x (by simp)
    have hn' : ∀ x ∈ n, x.length ≤ limit := fun y hy => hn y (by simp [hy])
    simp only [optimizeGo]
    split
    · exact ih x hx hn'
    · split
      · intro p hp
        rcases List.mem_cons.1 hp with rfl | hp
        · exact Nat.le_trans (strip_length_le f) hf
        · exact ih x hx hn' p hp
      · rename_i hlim
        simp at hlim
        split
        · exact ih f hf hn'
        · split
          · exact ih _ (by simp; omega) hn'
          · exact ih _ (by simp; omega) hn'

/-! ### The slices -/

theorem chunksAux_flatten (k : Nat) (hk : 0 < k) (fuel : Nat) (x : Str) (h : x.length ≤ fuel) :
    (chunksAux k fuel x).flatten = x := by
  induction fuel generalizing x with
  | zero =>
    have : x = [] := List.eq_nil_of_length_eq_zero (by omega)
    subst this; rfl
  | succ fuel ih =>
    simp only [chunksAux]
    split
    · rename_i h; simp [h]
    · rename_i hx
      rw [List.flatten_cons, ih]
      · exact List.take_append_drop k x
      · simp only [List.length_drop]; omega

theorem chunks_flatten (k : Nat) (hk : 0 < k) (x : Str) : (chunks k x).flatten = x :=
  chunksAux_flatten k hk _ x (Nat.le_refl _)

theorem chunksAux_length (k fuel : Nat) (x : Str) : ∀ c ∈ chunksAux k fuel x, c.length ≤ k := by
  induction fuel generalizing x with
  | zero => simp [chunksAux]
  | succ fuel ih =>
    simp only [chunksAux]
    split
    · simp
    · intro c hc
      rcases List.mem_cons.1 hc with rfl | hc
      · simp; omega
      · exact ih _ c hc

/-! ### One over-long sentence -/

theorem dropLast_append_getLastD (c : List Str) (h : c ≠ []) : c.dropLast ++ [c.getLastD []] = c := by
  rw [List.getLastD_eq_getLast?, List.getLast?_eq_some_getLast h]
  exact List.dropLast_concat_getLast h

/-- Joining the first words and putting the last one back gives the text again. -/
theorem split_last (y : Str) (h : (splitOn ' ' y).dropLast.length > 0) :
    join c!" " (splitOn ' ' y).dropLast ++ c!" " ++ (splitOn ' ' y).getLastD [] = y := by
  have hne : (splitOn ' ' y).dropLast ≠ [] := by
    intro e; rw [e] at h; simp at h
  rw [← join_append_singleton c!" " _ _ hne, dropLast_append_getLastD _ (splitOn_ne_nil ' ' y)]
  exact join_splitOn ' ' y

theorem split_last_length (y : Str) (h : (splitOn ' ' y).dropLast.length > 0) :
    (join c!" " (splitOn ' ' y).dropLast).length ≤ y.length ∧
    ((splitOn ' ' y).getLastD []).length ≤ y.length := by
  have := congrArg List.length (split_last y h)
  simp only [List.length_append, List.length_cons, List.length_nil] at this
  omega

theorem chunkStep_length (limit : Nat) (st : St) (ch : Str) (hch : ch.length ≤ limit)
    (hm : ∀ p ∈ st.m, p.length ≤ limit) (hb : st.b.length ≤ limit) (hs : st.s.length ≤ 2) :
    (∀ p ∈ (chunkStep limit st ch).m, p.length ≤ limit) ∧ (chunkStep limit st ch).b.length ≤ limit ∧
      (chunkStep limit st ch).s.length ≤ 2 := by
  unfold chunkStep
  split
  rename_i m c hmc
  split at hmc
  · cases hmc
    have hm' : ∀ p ∈ st.m ++ [st.b], p.length ≤ limit := by
      intro p hp
      rcases List.mem_append.1 hp with h | h
      · exact hm p h
      · rw [List.mem_singleton.1 h]; exact hb
    split
    · rename_i hc
      obtain ⟨h1, h2⟩ := split_last_length ch hc
      refine ⟨?_, by simp only; omega, hs⟩
      intro p hp
      rcases List.mem_append.1 hp with h | h
      · exact hm' p h
      · rw [List.mem_singleton.1 h]; omega
    · refine ⟨?_, by simp, by simp⟩
      intro p hp
      rcases List.mem_append.1 hp with h | h
      · exact hm' p h
      · rw [List.mem_singleton.1 h]; exact hch
  · rename_i hlim
    cases hmc
    simp only [List.length_append, gt_iff_lt, Nat.not_lt] at hlim
    split
    · rename_i hc
      obtain ⟨h1, h2⟩ := split_last_length (st.b ++ ch) hc
      simp only [List.length_append] at h1 h2
      refine ⟨?_, by simp only; omega, hs⟩
      intro p hp
      rcases List.mem_append.1 hp with h | h
      · exact hm p h
      · rw [List.mem_singleton.1 h]; omega
    · refine ⟨?_, by simp, by simp⟩
      intro p hp
      rcases List.mem_append.1 hp with h | h
      · exact hm p h
      · rw [List.mem_singleton.1 h]; exact hch

theorem chunkLoop_length (limit : Nat) (cs : List Str) (st : St) (hcs : ∀ c ∈ cs, c.length ≤ limit)
    (hm : ∀ p ∈ st.m, p.length ≤ limit) (hb : st.b.length ≤ limit) (hs : st.s.length ≤ 2) :
    (∀ p ∈ (cs.foldl (chunkStep limit) st).m, p.length ≤ limit) ∧
      (cs.foldl (chunkStep limit) st).s.length ≤ 2 := by
  induction cs generalizing st with
  | nil => exact ⟨hm, hs⟩
  | cons c cs ih =>
    obtain ⟨h1, h2, h3⟩ := chunkStep_length limit st c (hcs c (by simp)) hm hb hs
    exact ih _ (fun d hd => hcs d (by simp [hd])) h1 h2 h3

theorem sentenceLoop_length (limit : Nat) (hl : 50 < limit) (n : List Str) (m : List Str) (s : Str)
    (hm : ∀ p ∈ m, p.length ≤ limit) (hs : s.length ≤ 2) :
    ∃ m' s', sentenceLoop limit m s n = .ok (m', s') ∧ (∀ p ∈ m', p.length ≤ limit) ∧ s'.length ≤ 2 := by
  induction n generalizing m s with
  | nil => exact ⟨m, s, rfl, hm, hs⟩
  | cons x n ih =>
    simp only [sentenceLoop]
    split
    · have hlong : longSentence limit m x = .ok
          (((chunks (limit - 50) x).foldl (chunkStep limit) ⟨m, [], c!" "⟩).m,
           ((chunks (limit - 50) x).foldl (chunkStep limit) ⟨m, [], c!" "⟩).s) := by
        unfold longSentence
        rw [if_neg (by omega), if_neg (by omega)]
      rw [hlong]
      obtain ⟨h1, h2⟩ := chunkLoop_length limit (chunks (limit - 50) x) ⟨m, [], c!" "⟩
        (fun c hc => Nat.le_trans (chunksAux_length _ _ _ c hc) (by omega)) hm (by simp) (by simp)
      exact ih _ _ h1 h2
    · rename_i hx
      apply ih _ _ _ hs
      intro p hp
      rcases List.mem_append.1 hp with h | h
      · exact hm p h
      · rw [List.mem_singleton.1 h]; omega

/-! ### Content kept -/

theorem chunkStep_content (limit : Nat) (st : St) (ch t : Str)
    (h : (content st.m.flatten ++ content st.b).Sublist t) :
    (content (chunkStep limit st ch).m.flatten ++ content (chunkStep limit st ch).b).Sublist
      (t ++ content ch) := by
  have hfl : ∀ (m : List Str) (x : Str), content (m ++ [x]).flatten = content m.flatten ++ content x := by
    intro m x; simp [content_append]
  unfold chunkStep
  split
  rename_i m c hmc
  split at hmc
  · cases hmc
    split
    · rename_i hc
      have := congrArg content (split_last ch hc)
      rw [content_append, content_append, show content c!" " = [] by decide, List.append_nil] at this
      simp only [hfl]
      rw [List.append_assoc, this]
      exact List.Sublist.append h (List.Sublist.refl _)
    · simp only [hfl]
      rw [show content [] = [] from rfl, List.append_nil]
      exact List.Sublist.append h (List.Sublist.refl _)
  · cases hmc
    split
    · rename_i hc
      have := congrArg content (split_last (st.b ++ ch) hc)
      rw [content_append, content_append, show content c!" " = [] by decide, List.append_nil,
        content_append] at this
      simp only [hfl]
      rw [List.append_assoc, this, ← List.append_assoc]
      exact List.Sublist.append h (List.Sublist.refl _)
    · simp only [hfl]
      rw [show content [] = [] from rfl, List.append_nil]
      exact List.Sublist.append (List.Sublist.trans (List.sublist_append_left _ _) h)
        (List.Sublist.refl _)

theorem chunkLoop_content (limit : Nat) (cs : List Str) (st : St) (t : Str)
    (h : (content st.m.flatten ++ content st.b).Sublist t) :
    (content (cs.foldl (chunkStep limit) st).m.flatten ++
      content (cs.foldl (chunkStep limit) st).b).Sublist (t ++ content cs.flatten) := by
  induction cs generalizing st t with
  | nil => simpa [content] using h
  | cons c cs ih =>
    have := ih _ _ (chunkStep_content limit st c t h)
    rw [List.foldl_cons]
    rw [List.append_assoc, ← content_flatten_cons] at this
    exact this

theorem chunkLoop_sep (limit : Nat) (cs : List Str) (st : St) (h : content st.s = []) :
    content (cs.foldl (chunkStep limit) st).s = [] := by
  induction cs generalizing st with
  | nil => exact h
  | cons c cs ih =>
    rw [List.foldl_cons]
    apply ih
    unfold chunkStep
    split
    split
    · exact h
    · rfl

theorem sentenceLoop_content (limit : Nat) (n : List Str) (m : List Str) (s : Str) (m' : List Str)
    (s' : Str) (t : Str) (h : (content m.flatten).Sublist t) (hs : content s = [])
    (hr : sentenceLoop limit m s n = .ok (m', s')) :
    (content m'.flatten).Sublist (t ++ content n.flatten) ∧ content s' = [] := by
  induction n generalizing m s t with
  | nil =>
    simp only [sentenceLoop] at hr
    cases hr
    exact ⟨by simpa [content] using h, hs⟩
  | cons x n ih =>
    rw [content_flatten_cons, ← List.append_assoc]
    simp only [sentenceLoop] at hr
    split at hr
    · by_cases h50 : limit = 50
      · rw [longSentence, if_pos h50] at hr; cases hr
      · by_cases h50' : limit < 50
        · rw [longSentence, if_neg h50, if_pos h50'] at hr
          exact ih m _ _ (List.Sublist.trans h (List.sublist_append_left _ _)) (by decide) hr
        · rw [longSentence, if_neg h50, if_neg h50'] at hr
          have hc := chunkLoop_content limit (chunks (limit - 50) x) ⟨m, [], c!" "⟩ t
            (by simpa [content] using h)
          rw [chunks_flatten (limit - 50) (by omega) x] at hc
          exact ih _ _ _ (List.Sublist.trans (List.sublist_append_left _ _) hc)
            (chunkLoop_sep limit _ _ (by show content c!" " = []; decide)) hr
    · refine ih _ _ _ ?_ hs hr
      rw [show (m ++ [x]).flatten = m.flatten ++ x by simp, content_append]
      exact List.Sublist.append h (List.Sublist.refl _)

/-- Without over-long sentences the loop keeps the list as it is. -/
theorem sentenceLoop_short (limit : Nat) (n m : List Str) (s : Str)
    (h : ∀ x ∈ n, x.length ≤ limit) : sentenceLoop limit m s n = .ok (m ++ n, s) := by
  induction n generalizing m with
  | nil => simp [sentenceLoop]
  | cons x n ih =>
    simp only [sentenceLoop]
    rw [if_neg (by have := h x (by simp); omega), ih _ (fun y hy => h y (by simp [hy]))]
    simp

/-! ### Sentences are kept whole -/

theorem lstrip_infix {z u v : Str} (hz : ∀ c, z.head? = some c → pySpace c = false) :
    ∃ u', lstrip (u ++ z ++ v) = u' ++ z ++ v ∨ (z = [] ∧ ∃ w, lstrip (u ++ z ++ v) = w) := by
  unfold lstrip
  induction u with
  | nil =>
    cases z with
    | nil => exact ⟨[], Or.inr ⟨rfl, _, rfl⟩⟩
    | cons c z =>
      refine ⟨[], Or.inl ?_⟩
      simp [hz c rfl]
  | cons a u ih =>
    simp only [List.cons_append, List.dropWhile]
    split
    · simpa using ih
    · exact ⟨a :: u, Or.inl (by simp)⟩

theorem occurs_lstrip {z f : Str} (hz : Trimmed z) (h : Occurs z f) : Occurs z (lstrip f) := by
  obtain ⟨u, v, rfl⟩ := h
  rcases lstrip_infix (u := u) (v := v) hz.1 with ⟨u', h | ⟨rfl, w, h⟩⟩
  · exact ⟨u', v, h⟩
  · exact ⟨[], _, by simp; rfl⟩

theorem occurs_reverse {z f : Str} (h : Occurs z f) : Occurs z.reverse f.reverse := by
  obtain ⟨u, v, rfl⟩ := h
  exact ⟨v.reverse, u.reverse, by simp⟩

theorem trimmed_reverse {z : Str} (h : Trimmed z) : Trimmed z.reverse := by
  refine ⟨?_, ?_⟩
  · intro c hc; rw [List.head?_reverse] at hc; exact h.2 c hc
  · intro c hc; rw [List.getLast?_reverse] at hc; exact h.1 c hc

theorem occurs_strip {z f : Str} (hz : Trimmed z) (h : Occurs z f) : Occurs z (strip f) := by
  have h1 := occurs_lstrip hz h
  have h2 := occurs_lstrip (trimmed_reverse hz) (occurs_reverse h1)
  have h3 := occurs_reverse h2
  rw [List.reverse_reverse] at h3
  exact h3

theorem occurs_append_left {z f : Str} (w : Str) (h : Occurs z f) : Occurs z (f ++ w) := by
  obtain ⟨u, v, rfl⟩ := h
  exact ⟨u, v ++ w, by simp⟩

theorem optimizeGo_occurs_acc (limit : Nat) (s f : Str) (n : List Str) (z : Str) (hz : Trimmed z)
    (hne : z ≠ []) (h : Occurs z f) : ∃ p ∈ optimizeGo limit s f n, Occurs z p := by
  induction n generalizing f with
  | nil => exact ⟨strip f, by simp [optimizeGo], occurs_strip hz h⟩
  | cons x n ih =>
    simp only [optimizeGo]
    split
    · rename_i hf
      subst hf
      obtain ⟨u, v, h⟩ := h
      have := (List.append_eq_nil_iff.1 (List.append_eq_nil_iff.1 h.symm).1).2
      exact absurd this hne
    · split
      · exact ⟨strip f, by simp, occurs_strip hz h⟩
      · split
        · exact ih f h
        · split
          · exact ih _ (occurs_append_left x (occurs_append_left _ h))
          · exact ih _ (occurs_append_left x (occurs_append_left _ h))

theorem optimizeGo_occurs (limit : Nat) (s f : Str) (n : List Str) (z : Str) (hz : Trimmed z)
    (hne : z ≠ []) (h : z ∈ n) : ∃ p ∈ optimizeGo limit s f n, Occurs z p := by
  induction n generalizing f with
  | nil => simp at h
  | cons x n ih =>
    by_cases hx : z = x
    · subst hx
      have self : Occurs z z := ⟨[], [], by simp⟩
      simp only [optimizeGo]
      split
      · exact optimizeGo_occurs_acc limit s z n z hz hne self
      · split
        · obtain ⟨p, hp, ho⟩ := optimizeGo_occurs_acc limit s z n z hz hne self
          exact ⟨p, by simp [hp], ho⟩
        · split
          · rename_i hsp
            exfalso
            cases z with
            | nil => exact hne rfl
            | cons c z =>
              have := hz.1 c rfl
              simp only [isSpaceStr, Bool.and_eq_true, List.all_eq_true] at hsp
              rw [hsp.2 c (by simp)] at this
              cases this
          · split
            · exact optimizeGo_occurs_acc limit s _ n z hz hne ⟨f ++ c!" ", [], by simp⟩
            · exact optimizeGo_occurs_acc limit s _ n z hz hne ⟨f ++ s, [], by simp⟩
    · have hn : z ∈ n := by
        rcases List.mem_cons.1 h with h | h
        · exact absurd h hx
        · exact h
      simp only [optimizeGo]
      split
      · exact ih _ hn
      · split
        · obtain ⟨p, hp, ho⟩ := ih x hn
          exact ⟨p, by simp [hp], ho⟩
        · split
          · exact ih _ hn
          · split
            · exact ih _ hn
            · exact ih _ hn

theorem foldl_max_le (ls : List Nat) (l k : Nat) : ls.foldl max l < k ↔ l < k ∧ ∀ x ∈ ls, x < k := by
  induction ls generalizing l with
  | nil => simp
  | cons a ls ih =>
    rw [List.foldl_cons, ih]
    simp only [List.mem_cons, forall_eq_or_imp, ← and_assoc]
    have : max l a < k ↔ l < k ∧ a < k := by omega
    rw [this]

end Verif.TextSplit
