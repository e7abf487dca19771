/-
Properties of the text fields: C07 (one entry per language), C08 (text in index order), C14 (indexed
paragraphs), C15 (named texts), C51 (length of names of texts), C52 (names and classifications), C53
(synonyms).
-/
import Verif.Lemmas.LangText

namespace Verif.LangText
open Verif.Validators (firstOccurrences_snoc mem_firstOccurrences firstOccurrences_nodup Limit)
open Verif.Validators.Spec (firstOccurrences)

/-! ### C07, C08: multi-language fields -/

/-- The languages and texts a multi-language field should show for the entries `es`. -/
def Shows (sep : Option Str) (es : List Spec.Given) (ws : List (Str × Str)) : Prop :=
  (ws.map Prod.fst).Pairwise Spec.Before ∧
  (∀ L, L ∈ ws.map Prod.fst ↔ ∃ e ∈ es, e.lang = L) ∧
  ∀ p ∈ ws, Spec.IsText sep es p.1 p.2

theorem byLang_shows (t : TextCls) (langs : Option (List Str)) (os : List PyVal)
    (es : List Spec.Given) (h : Spec.Accepted langs os es) :
    Shows t.sep es (byLang (history (add t (validateEntry langs)) [] os)) := by
  rw [history_merge t langs os es h, addMerged_eq]
  have hv := accepted_visible h
  obtain ⟨h1, h2, h3⟩ := byLang_eq ((firstOccurrences (es.map key)).map (merged t.sep es)) (by
    intro e he
    obtain ⟨k, hk, rfl⟩ := List.mem_map.1 he
    exact merged_ne_nil _ _ hv _ (mem_firstOccurrences.1 hk))
  refine ⟨h1, fun L => ?_, fun p hp => ?_⟩
  · rw [h2]
    constructor
    · rintro ⟨e, he, rfl⟩
      obtain ⟨k, hk, rfl⟩ := List.mem_map.1 he
      obtain ⟨g, hg, rfl⟩ := List.mem_map.1 (mem_firstOccurrences.1 hk)
      exact ⟨g, hg, rfl⟩
    · rintro ⟨g, hg, rfl⟩
      exact ⟨_, List.mem_map_of_mem (mem_firstOccurrences.2 (List.mem_map_of_mem hg)), rfl⟩
  · rw [h3 p hp]
    exact langText_isText t.sep es p.1

/-- For every history of additions, if no text has to be split, a multi-language field is written
with exactly one entry per language used, sorted by language, and the text of each language is made of
all the texts accepted for it: one paragraph per index in increasing order, texts of the same index
joined by the separator. -/
theorem multilang_written_partial (t : TextCls) (langs : Option (List Str)) (os : List PyVal)
    (es : List Spec.Given) (h : Spec.Accepted langs os es) (ignore : Bool) (sent : Str → List Str)
    (out : List (Str × Str))
    (hout : endMulti t ignore sent (history (add t (validateEntry langs)) [] os) = .ok out)
    (hfit : ∀ L s, Spec.IsText t.sep es L s → Fits t ignore s) :
    Shows t.sep es out := by
  have hs := byLang_shows t langs os es h
  have : out = byLang (history (add t (validateEntry langs)) [] os) :=
    endValidate_fits (fun p hp => hfit p.1 p.2 (hs.2.2 p hp)) hout
  rw [this]; exact hs

/-- In general the texts are those of the specification, each replaced by its pieces in order. -/
theorem multilang_pieces (t : TextCls) (langs : Option (List Str)) (os : List PyVal)
    (es : List Spec.Given) (h : Spec.Accepted langs os es) (ignore : Bool) (sent : Str → List Str)
    (out : List (Str × Str))
    (hout : endMulti t ignore sent (history (add t (validateEntry langs)) [] os) = .ok out) :
    ∃ ws pss, Shows t.sep es ws ∧
      List.Forall₂ (fun w ps => pieces t ignore sent w.2 = .ok ps) ws pss ∧
      out = (List.zipWith (fun (w : Str × Str) ps => ps.map fun p => (w.1, p)) ws pss).flatten := by
  refine ⟨byLang (history (add t (validateEntry langs)) [] os), ?_⟩
  have gen : ∀ (l out : List (Str × Str)), endValidate t ignore sent l = .ok out →
      ∃ pss, List.Forall₂ (fun (w : Str × Str) ps => pieces t ignore sent w.2 = .ok ps) l pss ∧
        out = (List.zipWith (fun (w : Str × Str) ps => ps.map fun p => (w.1, p)) l pss).flatten := by
    intro l
    induction l with
    | nil => intro out h; simp [endValidate] at h; exact ⟨[], .nil, by simp [h]⟩
    | cons p l ih =>
      intro out h
      obtain ⟨k, s⟩ := p
      simp only [endValidate] at h
      split at h
      · cases h
      · rename_i ps hps
        split at h
        · cases h
        · rename_i r hr
          cases h
          obtain ⟨pss, h1, h2⟩ := ih r hr
          exact ⟨ps :: pss, .cons hps h1, by simp [h2]⟩
  obtain ⟨pss, h1, h2⟩ := gen _ _ hout
  exact ⟨pss, byLang_shows t langs os es h, h1, h2⟩

/-- Two equal texts given to the same language and index are both kept, and so on: nothing is lost in
the paragraph of an index. -/
example : endMulti (base 40) false (fun s => [s]) (history (add (base 40) (validateEntry none)) [] [
      .dict [(c!"@index", .int 2), (c!"@lang", .str c!"en"), (c!"#text", .str c!"b")],
      .list [.dict [(c!"@index", .str c!"1"), (c!"@lang", .str c!"en"), (c!"#text", .str c!"a")],
        .dict [(c!"@index", .int 1), (c!"@lang", .str c!"de"), (c!"#text", .str c!"x")]],
      .dict [(c!"@index", .int 1), (c!"@lang", .str c!"eng"), (c!"#text", .str c!"bad")],
      .dict [(c!"@index", .int 2), (c!"@lang", .str c!"en"), (c!"#text", .str c!"b")],
      .dict [(c!"@index", .int 3), (c!"@lang", .str c!"en"), (c!"#text", .str c!" ")]]) =
    .ok [(c!"de", c!"x"), (c!"en", c!"a\nb; b")] := by decide

/-- C07 in full is false: a text over the limit gives several entries of the same language. -/
theorem one_language_two_entries : ∃ (os : List PyVal) (sent : Str → List Str) (out : List (Str × Str)),
    (∀ s, (sent s).flatten = s) ∧
    endMulti (base 20) false sent (history (add (base 20) (validateEntry none)) [] os) = .ok out ∧
    ¬ (out.map Prod.fst).Nodup := by
  refine ⟨[.dict [(c!"@index", .int 1), (c!"@lang", .str c!"en"),
      (c!"#text", .str c!"First sentence. Second one.")]], fun s => [s.take 15, s.drop 15],
    [(c!"en", c!"First sentence."), (c!"en", c!"Second one.")], fun s => ?_, ?_, ?_⟩
  · simp [List.take_append_drop]
  · decide
  · decide

/-! ### C14: indexed paragraphs -/

theorem digit_order {i j : Int} (hi : 0 ≤ i ∧ i ≤ 9) (hj : 0 ≤ j ∧ j ≤ 9) {a b : Str}
    (h : strLe (intStr i ++ a) (intStr j ++ b) = true) :
    i < j ∨ (i = j ∧ strLe a b = true) := by
  have key : ∀ i j : Fin 10, ∃ c d, intStr (i.val : Int) = [c] ∧ intStr (j.val : Int) = [d] ∧
      (c < d → i < j) ∧ (c = d → i = j) := by
    have hs : ∀ i : Fin 10, intStr (i.val : Int) = [i.val.digitChar] := by decide
    have ho : ∀ i j : Fin 10, (i.val.digitChar < j.val.digitChar → i < j) ∧
      (i.val.digitChar = j.val.digitChar → i = j) := by decide
    intro i j
    exact ⟨_, _, hs i, hs j, (ho i j).1, (ho i j).2⟩
  obtain ⟨n, rfl⟩ := Int.eq_ofNat_of_zero_le hi.1
  obtain ⟨m, rfl⟩ := Int.eq_ofNat_of_zero_le hj.1
  obtain ⟨c, d, hc, hd, h1, h2⟩ := key ⟨n, by omega⟩ ⟨m, by omega⟩
  simp only at hc hd
  rw [hc, hd] at h
  simp only [List.cons_append, List.nil_append, strLe, Bool.or_eq_true, decide_eq_true_eq,
    Bool.and_eq_true, beq_iff_eq] at h
  rcases h with h | ⟨h, h'⟩
  · have := h1 h
    simp only [Fin.lt_def] at this
    left; omega
  · have := h2 h
    simp only [Fin.mk.injEq] at this
    right; exact ⟨by omega, h'⟩

/-- While all indices have one digit, a text-and-image field lists its paragraphs by increasing index
(and language), one entry per index and language, with all the texts given. -/
theorem indexed_in_order_partial (t : TextCls) (langs : Option (List Str)) (os : List PyVal)
    (es : List Spec.Given) (h : Spec.Accepted langs os es) (ignore : Bool) (sent : Str → List Str)
    (out : List ((Int × Str) × Str))
    (hout : endIndexedMulti t ignore sent (history (add t (validateEntry langs)) [] os) = .ok out)
    (hdig : ∀ e ∈ es, 0 ≤ e.index ∧ e.index ≤ 9)
    (hfit : ∀ i L, Fits t ignore (Spec.combine t.sep (Spec.textsOf es i L))) :
    (out.map Prod.fst).Pairwise (fun a b => a.1 < b.1 ∨ (a.1 = b.1 ∧ Spec.Before a.2 b.2)) ∧
    (∀ k, k ∈ out.map Prod.fst ↔ ∃ e ∈ es, k = (e.index, e.lang)) ∧
    ∀ p ∈ out, p.2 = Spec.combine t.sep (Spec.textsOf es p.1.1 p.1.2) := by
  rw [history_merge t langs os es h, addMerged_eq] at hout
  generalize hx : (firstOccurrences (es.map key)).map (merged t.sep es) = x at hout
  have hxm : ∀ e, e ∈ x ↔ ∃ g ∈ es, e = merged t.sep es (key g) := by
    intro e
    rw [← hx, List.mem_map]
    constructor
    · rintro ⟨k, hk, rfl⟩
      obtain ⟨g, hg, rfl⟩ := List.mem_map.1 (mem_firstOccurrences.1 hk)
      exact ⟨g, hg, rfl⟩
    · rintro ⟨g, hg, rfl⟩
      exact ⟨key g, mem_firstOccurrences.2 (List.mem_map_of_mem hg), rfl⟩
  have hout' := endValidate_fits (by
    intro p hp
    obtain ⟨e, he, rfl⟩ := List.mem_map.1 hp
    obtain ⟨g, hg, rfl⟩ := (hxm e).1 ((mem_sortBy _).1 he)
    exact hfit _ _) hout
  rw [hout', List.map_map]
  refine ⟨?_, ?_, ?_⟩
  · rw [List.pairwise_map]
    have hs := sortBy_sorted (fun a b : Entry => strLe (indexLangKey a) (indexLangKey b))
      (fun a b => strLe_total _ _) (fun a b c => strLe_trans) x
    have hn : (sortBy (fun a b : Entry => strLe (indexLangKey a) (indexLangKey b)) x).Pairwise
        fun a b => (a.index, a.lang) ≠ (b.index, b.lang) := by
      have : ((sortBy (fun a b : Entry => strLe (indexLangKey a) (indexLangKey b)) x).map
          fun e => (e.index, e.lang)).Nodup := by
        refine ((sortBy_perm _ x).map _).nodup_iff.2 ?_
        rw [← hx, List.map_map]
        have : ((fun e : Entry => (e.index, e.lang)) ∘ merged t.sep es) = id := rfl
        rw [this, List.map_id]
        exact firstOccurrences_nodup _
      exact List.pairwise_map.1 this
    refine (hs.and hn).imp_of_mem ?_
    intro a b ha hb hab
    obtain ⟨g, hg, rfl⟩ := (hxm a).1 ((mem_sortBy _).1 ha)
    obtain ⟨g', hg', rfl⟩ := (hxm b).1 ((mem_sortBy _).1 hb)
    rcases digit_order (hdig g hg) (hdig g' hg') hab.1 with h1 | ⟨h1, h2⟩
    · exact .inl h1
    · refine .inr ⟨h1, before_of_strLe h2 ?_⟩
      intro hl
      have hl : g.lang = g'.lang := hl
      apply hab.2
      show (g.index, g.lang) = (g'.index, g'.lang)
      rw [h1, hl]
  · intro k
    rw [List.mem_map]
    constructor
    · rintro ⟨e, he, rfl⟩
      obtain ⟨g, hg, rfl⟩ := (hxm e).1 ((mem_sortBy _).1 he)
      exact ⟨g, hg, rfl⟩
    · rintro ⟨g, hg, rfl⟩
      exact ⟨merged t.sep es (key g), (mem_sortBy _).2 ((hxm _).2 ⟨g, hg, rfl⟩), rfl⟩
  · intro p hp
    obtain ⟨e, he, rfl⟩ := List.mem_map.1 hp
    obtain ⟨g, hg, rfl⟩ := (hxm e).1 ((mem_sortBy _).1 he)
    rfl

def para (i : Int) (s : Str) : PyVal :=
  .dict [(c!"@index", .int i), (c!"@lang", .str c!"en"), (c!"#text", .str s)]

example : endIndexedMulti (base 32000) false (fun s => [s])
    (history (add (base 32000) (validateEntry none)) [] [para 2 c!"b", para 1 c!"a", para 2 c!"c"]) =
    .ok [((1, c!"en"), c!"a"), ((2, c!"en"), c!"b; c")] := by decide

/-- With ten paragraphs the order is wrong: paragraph 10 comes before paragraph 2. -/
theorem tenth_before_second : endIndexedMulti (base 32000) false (fun s => [s])
    (history (add (base 32000) (validateEntry none)) [] [para 2 c!"second", para 10 c!"tenth"]) =
    .ok [((10, c!"en"), c!"tenth"), ((2, c!"en"), c!"second")] := by decide

/-- The images of the same field are ordered by number, for every history. -/
theorem images_in_order (t : TextCls) (ignore : Bool) (sent : Str → List Str) (x : List Entry)
    (out : List (Int × Str)) (h : endIndexed t ignore sent x = .ok out)
    (hfit : ∀ e ∈ x, Fits t ignore e.text) :
    (out.map Prod.fst).Pairwise (· ≤ ·) ∧
    out.Perm (x.map fun e => (e.index, e.text)) := by
  have hout := endValidate_fits (by
    intro p hp
    obtain ⟨e, he, rfl⟩ := List.mem_map.1 hp
    exact hfit e ((mem_sortBy _).1 he)) h
  rw [hout]
  constructor
  · rw [List.map_map, List.pairwise_map]
    refine (sortBy_sorted byIndex byIndex_total byIndex_trans x).imp ?_
    intro a b hab
    simpa [byIndex] using hab
  · exact (sortBy_perm byIndex x).map _

example : endIndexed strCls false (fun s => [s]) (history (add strCls validateIndexed) [] [
    .dict [(c!"@index", .int 10), (c!"#text", .str c!"b.png")],
    .dict [(c!"@index", .int 2), (c!"#text", .str c!"a.png")]]) =
    .ok [(2, c!"a.png"), (10, c!"b.png")] := by decide

/-! ### C15: named texts -/

theorem validateNamed_new {x : List Named} {o : PyVal} {r : Named} (h : validateNamed x o = .ok r) :
    r.name ∉ x.map (·.name) := by
  simp only [validateNamed] at h
  split at h
  · cases h
  · split at h
    · cases h
    · split at h
      · split at h
        · cases h
        · rename_i hx
          cases h
          intro hm
          obtain ⟨m, hm, hn⟩ := List.mem_map.1 hm
          exact hx (List.any_eq_true.2 ⟨m, hm, by simp [hn]⟩)
      · cases h

theorem retrieveNamed_new {x : List Named} {l : List PyVal} {dupl : List Str} {rs : List Named}
    (h : retrieveNamed x dupl l = .ok rs) :
    (rs.map (·.name)).Nodup ∧ ∀ n ∈ rs.map (·.name), n ∉ dupl ∧ n ∉ x.map (·.name) := by
  induction l generalizing dupl rs with
  | nil => simp [retrieveNamed] at h; subst h; simp
  | cons o l ih =>
    simp only [retrieveNamed] at h
    split at h
    · cases h
    · rename_i r hr
      split at h
      · cases h
      · rename_i hd
        split at h
        · cases h
        · rename_i rs' hrs
          obtain ⟨h1, h2⟩ := ih hrs
          cases h
          split
          · rw [List.map_cons, List.nodup_cons]
            refine ⟨⟨fun hm => ?_, h1⟩, ?_⟩
            · exact (h2 _ hm).1 (by simp)
            · intro n hn
              rcases List.mem_cons.1 hn with rfl | hn'
              · exact ⟨hd, validateNamed_new hr⟩
              · exact ⟨fun hc => (h2 n hn').1 (by simp [hc]), (h2 n hn').2⟩
          · exact ⟨h1, fun n hn => ⟨fun hc => (h2 n hn).1 (by simp [hc]), (h2 n hn).2⟩⟩

/-- A field with named texts never holds two entries of the same name. -/
theorem named_unique (os : List PyVal) : ((history addNamed [] os).map (·.name)).Nodup := by
  have gen : ∀ (os : List PyVal) (x : List Named), (x.map (·.name)).Nodup →
      ((history addNamed x os).map (·.name)).Nodup := by
    intro os
    induction os with
    | nil => intro x h; exact h
    | cons o os ih =>
      intro x h
      have : history addNamed x (o :: os) = history addNamed (tryAdd addNamed x o) os := rfl
      rw [this]
      apply ih
      simp only [tryAdd, addNamed]
      cases hr : retrieveNamed x [] (asList o) with
      | error e => exact h
      | ok ns =>
        obtain ⟨h1, h2⟩ := retrieveNamed_new hr
        simp only [List.map_append]
        exact h.append h1 fun n hn hm => (h2 n hm).2 hn
  exact gen os [] (by simp)

/-- The argument contains an entry with the name `n`. -/
def Names (o : PyVal) (n : Str) : Prop :=
  ∃ d, PyVal.dict d ∈ Spec.items o ∧ Spec.Has d c!"@name" (.str n)

/-- An argument that names an entry already held is refused whole. If it is well-formed up to there,
the refusal is a ValueError. -/
theorem used_name_rejected (x : List Named) (o : PyVal) (n : Str) (hn : n ∈ x.map (·.name))
    (ho : Names o n) :
    (∃ e, addNamed x o = .error e) ∧ tryAdd addNamed x o = x := by
  obtain ⟨d, hd, hname⟩ := ho
  have hv : ∃ e, validateNamed x (.dict d) = .error e := by
    simp only [validateNamed]
    cases ht : validateText [c!"@name", c!"#text"] (.dict d) with
    | error e => exact ⟨e, rfl⟩
    | ok ds =>
      obtain ⟨d', s⟩ := ds
      obtain ⟨he, _, _⟩ := (validateText_iff _ _ _ _).1 ht
      cases he
      rw [← dictGet_iff] at hname
      simp only [hname]
      obtain ⟨m, hm, hmn⟩ := List.mem_map.1 hn
      rw [if_pos (List.any_eq_true.2 ⟨m, hm, by simpa using hmn⟩)]
      exact ⟨_, rfl⟩
  have hr : ∀ (l : List PyVal) (dupl : List Str), PyVal.dict d ∈ l →
      ∃ e, retrieveNamed x dupl l = .error e := by
    intro l
    induction l with
    | nil => intro _ h; simp at h
    | cons a l ih =>
      intro dupl h
      simp only [retrieveNamed]
      cases ha : validateNamed x a with
      | error e => exact ⟨e, rfl⟩
      | ok r =>
        dsimp only
        split
        · exact ⟨_, rfl⟩
        · have hl : PyVal.dict d ∈ l := by
            rcases List.mem_cons.1 h with rfl | h'
            · obtain ⟨e, he⟩ := hv; rw [he] at ha; cases ha
            · exact h'
          obtain ⟨e, he⟩ := ih (dupl ++ [r.name]) hl
          rw [he]; exact ⟨e, rfl⟩
  obtain ⟨e, he⟩ := hr (asList o) [] (by rw [asList_items]; exact hd)
  have : addNamed x o = .error e := by rw [addNamed, he]
  exact ⟨⟨e, this⟩, by rw [tryAdd, this]⟩

/-- For a single well-formed entry the error is a ValueError. -/
theorem used_name_value_error (x : List Named) (n s : Str) (hn : n ∈ x.map (·.name)) :
    addNamed x (.dict [(c!"@name", .str n), (c!"#text", .str s)]) = .error .valueError := by
  obtain ⟨m, hm, hmn⟩ := List.mem_map.1 hn
  have : (x.any fun m => m.name == n) = true := List.any_eq_true.2 ⟨m, hm, by simpa using hmn⟩
  simp [addNamed, asList, retrieveNamed, validateNamed, validateText, dictGet, this]

/-- The names written are distinct if no text is split. -/
theorem named_written_partial (t : TextCls) (ignore : Bool) (sent : Str → List Str) (os : List PyVal)
    (out : List (Str × Str)) (h : endNamed t ignore sent (history addNamed [] os) = .ok out)
    (hfit : ∀ n ∈ history addNamed [] os, Fits t ignore n.text) :
    (out.map Prod.fst).Nodup ∧ out = (history addNamed [] os).map fun n => (n.name, n.text) := by
  have hout := endValidate_fits (by
    intro p hp
    obtain ⟨e, he, rfl⟩ := List.mem_map.1 hp
    exact hfit e he) h
  refine ⟨?_, hout⟩
  rw [hout, List.map_map]
  exact named_unique os

def namedEntry (n s : Str) : PyVal := .dict [(c!"@name", .str n), (c!"#text", .str s)]

example : history addNamed [] [namedEntry c!"a" c!"x", .list [namedEntry c!"b" c!"y",
    namedEntry c!"a" c!"z"], namedEntry c!"b" c!"w"] = [⟨c!"a", c!"x"⟩, ⟨c!"b", c!"w"⟩] := by decide

/-- What is written can still repeat a name: a text over the limit is split into several entries. -/
theorem written_name_twice : ∃ (os : List PyVal) (sent : Str → List Str) (out : List (Str × Str)),
    (∀ s, (sent s).flatten = s) ∧ endNamed (base 20) false sent (history addNamed [] os) = .ok out ∧
    ¬ (out.map Prod.fst).Nodup := by
  refine ⟨[namedEntry c!"v" c!"First sentence. Second one."], fun s => [s.take 15, s.drop 15],
    [(c!"v", c!"First sentence."), (c!"v", c!"Second one.")], fun s => ?_, by decide, by decide⟩
  simp [List.take_append_drop]

/-! ### C51: length of the names of texts -/

/-- The names are declared with at most forty characters, but a name of any length is written. -/
theorem name_of_any_length (n s : Str) (hs : Spec.Visible s) (sent : Str → List Str)
    (hlen : s.length ≤ 32000) :
    endNamed (base 32000) false sent (history addNamed [] [namedEntry n s]) = .ok [(n, s)] := by
  have hb : notBlank s = true := (notBlank_iff s).2 hs
  have hh : history addNamed [] [namedEntry n s] = [⟨n, s⟩] := by
    simp [history, tryAdd, addNamed, namedEntry, asList, retrieveNamed, validateNamed, validateText,
      dictGet, hb]
  rw [hh]
  have h2 : ¬ (32000 < s.length) := by omega
  simp [endNamed, endValidate, pieces, base, upper, Validators.limEnd, Limit.holds, hlen, h2]

example : Spec.Visible c!"x" := by decide

/-! ### C52: names and classifications -/

theorem sorted_head {x : List Entry} {e : Entry} {r : List Entry} (h : sortBy byIndex x = e :: r) :
    ∃ a b, x = a ++ e :: b ∧ (∀ y ∈ a, e.index < y.index) ∧ ∀ y ∈ b, e.index ≤ y.index := by
  induction x generalizing e r with
  | nil => simp [sortBy] at h
  | cons c x ih =>
    simp only [sortBy] at h
    cases hx : sortBy byIndex x with
    | nil =>
      rw [hx] at h
      simp only [insertBy, List.cons.injEq] at h
      obtain ⟨rfl, _⟩ := h
      have : x = [] := List.length_eq_zero_iff.1 (by rw [← sortBy_length byIndex x, hx]; rfl)
      subst this
      exact ⟨[], [], rfl, by simp, by simp⟩
    | cons d r' =>
      rw [hx] at h
      simp only [insertBy] at h
      split at h
      · rename_i hle
        simp only [List.cons.injEq] at h
        obtain ⟨rfl, _⟩ := h
        refine ⟨[], x, rfl, by simp, ?_⟩
        intro y hy
        have hs := sortBy_sorted byIndex byIndex_total byIndex_trans x
        have hm : y ∈ sortBy byIndex x := (mem_sortBy _).2 hy
        rw [hx] at hs hm
        have h1 : c.index ≤ d.index := by simpa [byIndex] using hle
        rcases List.mem_cons.1 hm with rfl | hm'
        · exact h1
        · have h2 : d.index ≤ y.index := by
            simpa [byIndex] using (List.pairwise_cons.1 hs).1 y hm'
          omega
      · rename_i hle
        simp only [List.cons.injEq] at h
        obtain ⟨rfl, _⟩ := h
        obtain ⟨a, b, rfl, h1, h2⟩ := ih hx
        refine ⟨c :: a, b, rfl, ?_, h2⟩
        intro y hy
        rcases List.mem_cons.1 hy with rfl | hy'
        · simp only [byIndex, decide_eq_true_eq] at hle; omega
        · exact h1 y hy'

/-- The earliest entry of smallest index. -/
def FirstByIndex (es : List Spec.Given) (e : Spec.Given) : Prop :=
  ∃ a b, es = a ++ e :: b ∧ (∀ y ∈ a, e.index < y.index) ∧ ∀ y ∈ b, e.index ≤ y.index

theorem map_ofGiven_split {es : List Spec.Given} {a b : List Entry} {e : Entry}
    (h : es.map ofGiven = a ++ e :: b) :
    ∃ a' e' b', es = a' ++ e' :: b' ∧ a'.map ofGiven = a ∧ ofGiven e' = e ∧ b'.map ofGiven = b := by
  obtain ⟨a', r, h1, h2, h3⟩ := List.map_eq_append_iff.1 h
  obtain ⟨e', b', h4, h5, h6⟩ := List.map_eq_cons_iff.1 h3
  exact ⟨a', e', b', by rw [h1, h4], h2, h5, h6⟩

/-- A name field shows the first entry by index; its text is whole if it is within the limit. -/
theorem name_written_partial (t : TextCls) (langs : Option (List Str)) (os : List PyVal)
    (es : List Spec.Given) (h : Spec.Accepted langs os es) (ignore : Bool) (sent : Str → List Str)
    (out : Option (Str × Str))
    (hout : endName t ignore sent (history (addPlain (validateEntry langs)) [] os) = .ok out) :
    (es = [] ∧ out = none) ∨
    ∃ e p, FirstByIndex es e ∧ out = some (e.lang, p) ∧
      (∃ ps, pieces t ignore sent e.text = .ok (p :: ps)) ∧
      (Fits t ignore e.text → p = e.text) := by
  rw [history_plain langs os es h, List.nil_append] at hout
  simp only [endName, sortedPlain] at hout
  cases hx : sortBy byIndex (es.map ofGiven) with
  | nil =>
    left
    have : es.map ofGiven = [] :=
      List.length_eq_zero_iff.1 (by rw [← sortBy_length byIndex (es.map ofGiven), hx]; rfl)
    rw [hx] at hout
    cases hout
    exact ⟨by simpa using this, rfl⟩
  | cons f r =>
    right
    obtain ⟨a, b, hab, h1, h2⟩ := sorted_head hx
    obtain ⟨a', e, b', rfl, rfl, rfl, rfl⟩ := map_ofGiven_split hab
    rw [hx] at hout
    simp only [List.map_cons, endValidate, ofGiven_lang, ofGiven_text, List.append_nil] at hout
    refine ⟨e, ?_⟩
    have hfirst : FirstByIndex (a' ++ e :: b') e :=
      ⟨a', b', rfl, fun y hy => h1 (ofGiven y) (List.mem_map_of_mem hy),
        fun y hy => h2 (ofGiven y) (List.mem_map_of_mem hy)⟩
    cases hp : pieces t ignore sent e.text with
    | error err => rw [hp] at hout; cases hout
    | ok ps =>
      rw [hp] at hout
      cases ps with
      | nil => cases hout
      | cons p ps =>
        cases hout
        refine ⟨p, hfirst, rfl, ⟨ps, rfl⟩, fun hf => ?_⟩
        have := pieces_fits hf hp
        simp at this
        exact this.1

example : endName (base 120) false (fun s => [s]) (history (addPlain (validateEntry none)) []
    [para 1 c!"other", para 0 c!"steel", para 0 c!"x"]) = .ok (some (c!"en", c!"steel")) := by decide

/-- A longer name is cut after its first piece, and the rest is lost. -/
theorem name_cut : ∃ (os : List PyVal) (sent : Str → List Str), (∀ s, (sent s).flatten = s) ∧
    endName (base 20) false sent (history (addPlain (validateEntry none)) [] os) =
      .ok (some (c!"en", c!"First sentence.")) ∧
    os = [para 0 c!"First sentence. Second one."] := by
  refine ⟨_, fun s => [s.take 15, s.drop 15], fun s => ?_, ?_, rfl⟩
  · simp [List.take_append_drop]
  · decide

/-- A classification longer than its limit keeps its last piece only. -/
theorem classification_cut : ∃ (os : List PyVal) (sent : Str → List Str), (∀ s, (sent s).flatten = s) ∧
    endClass (base 20) false sent (history (addPlain (validateEntry none)) [] os) =
      .ok (some (c!"en", c!"Second one.")) ∧
    os = [para 0 c!"First sentence. Second one."] := by
  refine ⟨_, fun s => [s.take 15, s.drop 15], fun s => ?_, ?_, rfl⟩
  · simp [List.take_append_drop]
  · decide

theorem insertBy_last (c : Entry) (l : List Entry) (e : Entry) (h : (insertBy byIndex c l).getLast? = some e) :
    (e = c ∧ ∀ y ∈ l, y.index < c.index) ∨ (l.getLast? = some e ∧ ∃ y ∈ l, c.index ≤ y.index) := by
  induction l with
  | nil => simp [insertBy] at h; exact .inl ⟨h.symm, by simp⟩
  | cons d l ih =>
    simp only [insertBy] at h
    split at h
    · rename_i hle
      right
      rw [List.getLast?_cons_cons] at h
      exact ⟨h, d, by simp, by simpa [byIndex] using hle⟩
    · rename_i hle
      have hlt : d.index < c.index := by
        simp only [byIndex, decide_eq_true_eq] at hle; omega
      have hne : insertBy byIndex c l ≠ [] := by
        intro hn
        have := (insertBy_perm byIndex c l).length_eq
        rw [hn] at this; simp at this
      rw [List.getLast?_cons, List.getLast?_eq_some_getLast hne] at h
      have h' : (insertBy byIndex c l).getLast? = some e := by
        rw [List.getLast?_eq_some_getLast hne]; simpa using h
      rcases ih h' with ⟨rfl, h2⟩ | ⟨h1, y, hy, h2⟩
      · refine .inl ⟨rfl, ?_⟩
        intro y hy
        rcases List.mem_cons.1 hy with rfl | hy'
        · exact hlt
        · exact h2 y hy'
      · refine .inr ⟨?_, y, by simp [hy], h2⟩
        rw [List.getLast?_cons, h1]; rfl

/-- The latest entry of largest index. -/
def LastByIndex (es : List Spec.Given) (e : Spec.Given) : Prop :=
  ∃ a b, es = a ++ e :: b ∧ (∀ y ∈ a, y.index ≤ e.index) ∧ ∀ y ∈ b, y.index < e.index

theorem sorted_last {x : List Entry} {e : Entry} (h : (sortBy byIndex x).getLast? = some e) :
    ∃ a b, x = a ++ e :: b ∧ (∀ y ∈ a, y.index ≤ e.index) ∧ ∀ y ∈ b, y.index < e.index := by
  induction x generalizing e with
  | nil => simp [sortBy] at h
  | cons c x ih =>
    simp only [sortBy] at h
    rcases insertBy_last c _ e h with ⟨rfl, h1⟩ | ⟨h1, y, hy, h2⟩
    · exact ⟨[], x, rfl, by simp, fun y hy => h1 y ((mem_sortBy _).2 hy)⟩
    · obtain ⟨a, b, rfl, h3, h4⟩ := ih h1
      refine ⟨c :: a, b, rfl, ?_, h4⟩
      have hye : y.index ≤ e.index := by
        have hy' := (mem_sortBy _).1 hy
        rcases List.mem_append.1 hy' with hy' | hy'
        · exact h3 y hy'
        · rcases List.mem_cons.1 hy' with rfl | hy''
          · exact Int.le_refl _
          · exact Int.le_of_lt (h4 y hy'')
      intro z hz
      rcases List.mem_cons.1 hz with rfl | hz'
      · omega
      · exact h3 z hz'

/-- A classification field shows the last entry by index; its text is whole if within the limit. -/
theorem classification_written_partial (t : TextCls) (langs : Option (List Str)) (os : List PyVal)
    (es : List Spec.Given) (h : Spec.Accepted langs os es) (ignore : Bool) (sent : Str → List Str)
    (out : Option (Str × Str))
    (hout : endClass t ignore sent (history (addPlain (validateEntry langs)) [] os) = .ok out) :
    (es = [] ∧ out = none) ∨
    ∃ e p, LastByIndex es e ∧ out = some (e.lang, p) ∧
      (∃ ps, pieces t ignore sent e.text = .ok (ps ++ [p])) ∧
      (Fits t ignore e.text → p = e.text) := by
  rw [history_plain langs os es h, List.nil_append] at hout
  simp only [endClass, sortedPlain, List.getLast?_map] at hout
  cases hx : (sortBy byIndex (es.map ofGiven)).getLast? with
  | none =>
    left
    have h0 := List.getLast?_eq_none_iff.1 hx
    have : es.map ofGiven = [] :=
      List.length_eq_zero_iff.1 (by rw [← sortBy_length byIndex (es.map ofGiven), h0]; rfl)
    rw [hx] at hout
    cases hout
    exact ⟨by simpa using this, rfl⟩
  | some f =>
    right
    obtain ⟨a, b, hab, h1, h2⟩ := sorted_last hx
    obtain ⟨a', e, b', rfl, rfl, rfl, rfl⟩ := map_ofGiven_split hab
    rw [hx] at hout
    simp only [Option.map_some, endValidate, ofGiven_lang, ofGiven_text, List.append_nil] at hout
    refine ⟨e, ?_⟩
    have hlast : LastByIndex (a' ++ e :: b') e :=
      ⟨a', b', rfl, fun y hy => h1 (ofGiven y) (List.mem_map_of_mem hy),
        fun y hy => h2 (ofGiven y) (List.mem_map_of_mem hy)⟩
    cases hp : pieces t ignore sent e.text with
    | error err => rw [hp] at hout; cases hout
    | ok ps =>
      rw [hp] at hout
      simp only [List.getLast?_map] at hout
      cases hl : ps.getLast? with
      | none => rw [hl] at hout; cases hout
      | some p =>
        rw [hl] at hout
        cases hout
        obtain ⟨qs, rfl⟩ := List.getLast?_eq_some_iff.1 hl
        refine ⟨p, hlast, rfl, ⟨qs, rfl⟩, fun hf => ?_⟩
        have := pieces_fits hf hp
        cases qs with
        | nil => simpa using this
        | cons q qs => simp at this

/-! ### C53: synonyms -/

/-- The synonyms of at most eighty characters are written, by index; all others are left out without
notice, even when limits are ignored. -/
theorem synonyms_exact (langs : Option (List Str)) (os : List PyVal) (es : List Spec.Given)
    (h : Spec.Accepted langs os es) (ignore : Bool) (sent : Str → List Str) :
    ∃ out, endSynonyms (base 80) ignore sent 80 (history (addPlain (validateEntry langs)) [] os) =
        .ok out ∧
      out = ((sortBy byIndex (es.map ofGiven)).map fun e => (e.lang, e.text)).filter
        (fun p => p.2.length ≤ 80) ∧
      ∀ L s, (L, s) ∈ out ↔ (∃ e ∈ es, e.lang = L ∧ e.text = s) ∧ s.length ≤ 80 := by
  rw [history_plain langs os es h, List.nil_append]
  have gen : ∀ l : List (Str × Str), (∀ p ∈ l, p.2.length ≤ 80) →
      endValidate (base 80) ignore sent l = .ok l := by
    intro l
    induction l with
    | nil => intro _; rfl
    | cons p l ih =>
      intro hl
      obtain ⟨k, s⟩ := p
      have hs : s.length ≤ 80 := hl (k, s) (by simp)
      have hs' : ¬ 80 < s.length := by omega
      simp [endValidate, pieces, base, upper, Validators.limEnd, Limit.holds, hs, hs'] at ih ⊢
      rw [ih (fun a b hp => hl (a, b) (by simp [hp]))]
  refine ⟨_, gen _ (fun p hp => by simpa using (List.mem_filter.1 hp).2), rfl, ?_⟩
  intro L s
  simp only [sortedPlain, List.mem_filter, List.mem_map, mem_sortBy, decide_eq_true_eq]
  constructor
  · rintro ⟨⟨_, ⟨e, he, rfl⟩, hp⟩, hl⟩
    cases hp
    exact ⟨⟨e, he, rfl, rfl⟩, hl⟩
  · rintro ⟨⟨e, he, rfl, rfl⟩, hl⟩
    exact ⟨⟨ofGiven e, ⟨e, he, rfl⟩, rfl⟩, hl⟩

/-- So a synonym can disappear. -/
theorem synonym_lost (s : Str) (hv : Spec.Visible s) (hl : 80 < s.length) (sent : Str → List Str) :
    endSynonyms (base 80) true sent 80 (history (addPlain (validateEntry none)) [] [para 0 s]) =
      .ok [] := by
  have he : Spec.Accepted none [para 0 s] [⟨0, c!"en", s⟩] := by
    have h1 : Spec.IsEntry none (para 0 s) ⟨0, c!"en", s⟩ := by
      rw [← validateEntry_iff]
      rfl
    have := Spec.Accepted.good (langs := none) (o := para 0 s) (os := []) (es := [⟨0, c!"en", s⟩])
      (r := []) (.cons h1 .nil) .nil
    simpa [List.filter, hv] using this
  obtain ⟨out, h1, h2, _⟩ := synonyms_exact none _ _ he true sent
  rw [h1, h2]
  simp [sortBy, insertBy]
  omega

example : Spec.Visible (List.replicate 81 'a') ∧ 80 < (List.replicate 81 'a').length := by decide

/-! ### Texts without language restriction, and the classes of texts -/

/-- Texts within the limit are all written, by index, each with its language. -/
theorem plain_written (n : Nat) (langs : Option (List Str)) (os : List PyVal) (es : List Spec.Given)
    (h : Spec.Accepted langs os es) (hn : ∀ e ∈ es, e.text.length ≤ n) (ignore : Bool) (sent : Str → List Str) :
    ∃ out, endPlain (base n) ignore sent (history (addPlain (validateEntry langs)) [] os) = .ok out ∧
      out = (sortBy byIndex (es.map ofGiven)).map (fun e => (e.lang, e.text)) ∧
      ∀ L s, (L, s) ∈ out ↔ ∃ e ∈ es, e.lang = L ∧ e.text = s := by
  rw [history_plain langs os es h, List.nil_append]
  have gen : ∀ l : List (Str × Str), (∀ p ∈ l, p.2.length ≤ n) →
      endValidate (base n) ignore sent l = .ok l := by
    intro l
    induction l with
    | nil => intro _; rfl
    | cons p l ih =>
      intro hl
      obtain ⟨k, s⟩ := p
      have hs : s.length ≤ n := hl (k, s) (by simp)
      have hs' : ¬ n < s.length := by omega
      simp [endValidate, pieces, base, upper, Validators.limEnd, Limit.holds, hs, hs'] at ih ⊢
      rw [ih (fun a b hp => hl (a, b) (by simp [hp]))]
  have hm : ∀ p : Str × Str, p ∈ sortedPlain (es.map ofGiven) ↔ ∃ e ∈ es, e.lang = p.1 ∧ e.text = p.2 := by
    rintro ⟨L, s⟩
    simp only [sortedPlain, List.mem_map, mem_sortBy]
    constructor
    · rintro ⟨_, ⟨e, he, rfl⟩, hp⟩
      cases hp
      exact ⟨e, he, rfl, rfl⟩
    · rintro ⟨e, he, rfl, rfl⟩
      exact ⟨ofGiven e, ⟨e, he, rfl⟩, rfl⟩
  refine ⟨_, gen _ (fun p hp => ?_), rfl, fun L s => hm (L, s)⟩
  obtain ⟨e, he, -, h2⟩ := (hm p).1 hp
  exact h2 ▸ hn e he

example : ∃ out, endPlain (base 40) false (fun s => [s]) (history (addPlain (validateEntry none)) [] [para 0 c!"steel"]) =
    .ok out ∧ (c!"en", c!"steel") ∈ out := by
  have he : Spec.Accepted none [para 0 c!"steel"] [⟨0, c!"en", c!"steel"⟩] :=
    Spec.Accepted.good (es := [⟨0, c!"en", c!"steel"⟩]) (r := []) (.cons ((validateEntry_iff _ _ _).1 rfl) .nil) .nil
  obtain ⟨out, h1, -, h3⟩ := plain_written 40 none _ _ he (by decide) false fun s => [s]
  exact ⟨out, h1, (h3 _ _).2 ⟨⟨0, c!"en", c!"steel"⟩, by simp, rfl, rfl⟩⟩

/-- A second text of the same index and language: joined to the first, or in its place. -/
theorem second_text (langs : Option (List Str)) (o o' : PyVal) (i : Int) (L s s' : Str) (n : Nat)
    (h : Spec.IsEntry langs o ⟨i, L, s⟩) (h' : Spec.IsEntry langs o' ⟨i, L, s'⟩)
    (hv : Spec.Visible s) (hv' : Spec.Visible s') :
    history (add (base n) (validateEntry langs)) [] [o, o'] = [⟨i, L, s ++ c!"; " ++ s'⟩] ∧
    history (add unlimited (validateEntry langs)) [] [o, o'] = [⟨i, L, s ++ c!"; " ++ s'⟩] ∧
    history (add (uniqueBase n) (validateEntry langs)) [] [o, o'] = [⟨i, L, s'⟩] ∧
    history (add strCls (validateEntry langs)) [] [o, o'] = [⟨i, L, s'⟩] := by
  have hi : Spec.items o = [o] := by obtain ⟨d, v, rfl, -⟩ := h; rfl
  have hi' : Spec.items o' = [o'] := by obtain ⟨d, v, rfl, -⟩ := h'; rfl
  have ha : Spec.Accepted langs [o, o'] [⟨i, L, s⟩, ⟨i, L, s'⟩] := by
    have := Spec.Accepted.good (langs := langs) (o := o) (os := [o']) (es := [⟨i, L, s⟩]) (r := [⟨i, L, s'⟩])
      (hi ▸ .cons h .nil) (by
        have := Spec.Accepted.good (langs := langs) (o := o') (os := []) (es := [⟨i, L, s'⟩]) (r := [])
          (hi' ▸ .cons h' .nil) .nil
        simpa [List.filter, hv'] using this)
    simpa [List.filter, hv] using this
  refine ⟨?_, ?_, ?_, ?_⟩ <;> rw [history_merge _ _ _ _ ha] <;>
    simp [addMerged, mergeOne, TextCls.addText, base, unlimited, uniqueBase, strCls, ofGiven]

example : history (add (uniqueBase 40) (validateEntry none)) [] [para 0 c!"old", para 0 c!"new"] = [⟨0, c!"en", c!"new"⟩] :=
  (second_text none _ _ 0 c!"en" c!"old" c!"new" 40 ((validateEntry_iff _ _ _).1 rfl) ((validateEntry_iff _ _ _).1 rfl)
    (by decide) (by decide)).2.2.1

/-- A text of the class without a limit is written whole up to a hundred million characters, and refused beyond; a plain
text always. -/
theorem unlimited_iff (i : Int) (L s : Str) (sent : Str → List Str) :
    (endPlain unlimited false sent [⟨i, L, s⟩] = .ok [(L, s)] ↔ s.length ≤ 100000000) ∧
    (endPlain unlimited false sent [⟨i, L, s⟩] = .error .valueError ↔ 100000000 < s.length) ∧
    endPlain strCls false sent [⟨i, L, s⟩] = .ok [(L, s)] := by
  have hlim : (Limit.upper 100000000).off = false := by simp [Limit.off]
  by_cases h : s.length ≤ 100000000
  · have : ¬ 100000000 < s.length := by omega
    simp [endPlain, sortedPlain, sortBy, insertBy, endValidate, pieces, unlimited, strCls, Validators.limEnd, Limit.holds, hlim, h]
  · simp [endPlain, sortedPlain, sortBy, insertBy, endValidate, pieces, unlimited, strCls, Validators.limEnd, Limit.holds, hlim, h]
    omega

example : c!"text".length ≤ 100000000 := by decide

end Verif.LangText
