/-
Theorems about reviews.
-/
import Mathlib.Data.List.TakeWhile
import Verif.Model.Reviews
import Verif.Spec.Reviews
import Verif.Lemmas.Comments
import Verif.Lemmas.EcsVars
import Verif.Lemmas.Num
import Verif.Props.CommentsBack
import Verif.Props.Refs
import Mathlib.Tactic.ByContra

namespace Verif.Reviews
open Spec Comments

/-! ## The kind of a review -/

theorem find_ge (y : Str) : ∀ x : Str, -1 ≤ find y x
  | [] => by unfold find; split <;> decide
  | c :: l => by
    have ih := find_ge y l
    unfold find
    split
    · decide
    · split
      · decide
      · omega

theorem find_zero (y : Str) (hy : y ≠ []) (x : Str) (h : find y x = 0) : y <+: x := by
  cases x with
  | nil => simp [find, hy] at h
  | cons c l =>
    unfold find at h
    by_cases hs : startsWith y (c :: l) = true
    · exact startsWith_prefix.1 hs
    · rw [if_neg hs] at h
      have ih := find_ge y l
      split at h
      · cases h
      · rename_i n hn
        have : find y l = -1 := by omega
        exact absurd this hn

/-- `find` says where a text begins: nothing is before it exactly if the other one begins with it. -/
theorem find_zero_iff (y : Str) (hy : y ≠ []) (x : Str) : find y x = 0 ↔ y <+: x := by
  refine ⟨find_zero y hy x, fun h => ?_⟩
  cases x with
  | nil => exact absurd (List.prefix_nil.1 h) hy
  | cons c l =>
    unfold find
    rw [if_pos (startsWith_prefix.2 h)]

/-- No review is ever said to be external: the test is always true. -/
theorem kind_some (e : Str) (h : e ≠ []) : kind (some e) = some .internal := by
  cases e with
  | nil => exact absurd rfl h
  | cons c l =>
    unfold kind
    have : ([c!"ecoinvent", c!"Ecoinvent"].any fun n => decide (find n (c :: l) ≠ 0)) = true := by
      by_cases h1 : find c!"ecoinvent" (c :: l) = 0
      · by_cases h2 : find c!"Ecoinvent" (c :: l) = 0
        · have p1 := find_zero _ (by simp) _ h1
          have p2 := find_zero _ (by simp) _ h2
          rw [List.cons_prefix_cons] at p1 p2
          rw [← p1.1] at p2
          exact absurd p2.1 (by decide)
        · simp [h2]
      · simp [h1]
    simp only [this, if_true]

theorem kind_never_external (email : Option Str) : kind email ≠ some .external := by
  cases email with
  | none => simp [kind]
  | some e =>
    cases e with
    | nil => simp [kind]
    | cons c l => rw [kind_some _ (by simp)]; simp

/-- The kind is given exactly if there is an address. -/
theorem kind_none_iff (email : Option Str) : kind email = none ↔ email = none ∨ email = some [] := by
  cases email with
  | none => simp [kind]
  | some e =>
    cases e with
    | nil => simp [kind]
    | cons c l => rw [kind_some _ (by simp)]; simp

/-- So a review by somebody from outside is said to be internal. -/
theorem external_is_internal : ∃ e, ¬ Own e ∧ kind (some e) = some .internal :=
  ⟨c!"reviewer@example.org", by unfold Own; decide, kind_some _ (by simp)⟩

/-- Exactly the reviews of the system are left out, unless they are wanted. -/
theorem left_out_iff (system : Bool) (conv : Str → Py Str) (r : EcsReview) (u : Str) (h : conv r.id = .ok u) :
    toIlcd system conv r = .ok none ↔ r.email = some c!"support@ecoinvent.org" ∧ system = false := by
  unfold toIlcd
  split
  · rename_i hc; simp [hc]
  · rename_i hc
    rw [h, Refs.bind_ok']
    simp only [Except.ok.injEq, reduceCtorEq, false_iff]
    exact hc

example : toIlcd false .ok ⟨[], ⟨1, 0, 0, 0⟩, some c!"support@ecoinvent.org", [], [], []⟩ = .ok none := by
  rw [left_out_iff _ _ _ [] rfl]
  exact ⟨rfl, rfl⟩

/-! ## Version and date -/


theorem digits_of {n x : Str} (hn : ∀ c ∈ n, c.isDigit = true) (h : ∀ c, x.head? = some c → c.isDigit = false) :
    digits (n ++ x) = (n, x) := by
  unfold digits
  induction n with
  | nil =>
    cases x with
    | nil => rfl
    | cons c x => simp [h c rfl]
  | cons c n ih =>
    have hc := hn c List.mem_cons_self
    have := ih fun d hd => hn d (List.mem_cons_of_mem _ hd)
    simp only [Prod.mk.injEq] at this
    simp [hc, this.1, this.2]

/-- Four numbers and the end of the line are found. -/
theorem fourNumbers_of (a b c d r : Str) (ha : Digits a) (hb : Digits b) (hc : Digits c) (hd : Digits d) :
    fourNumbers (a ++ '.' :: (b ++ '.' :: (c ++ '.' :: (d ++ '\n' :: r)))) =
      some (a ++ '.' :: (b ++ '.' :: (c ++ '.' :: d)), r) := by
  unfold fourNumbers
  rw [digits_of ha.2 (by simp)]
  obtain ⟨x, a, rfl⟩ := List.exists_cons_of_ne_nil ha.1
  simp only
  rw [digits_of hb.2 (by simp)]
  obtain ⟨x, b, rfl⟩ := List.exists_cons_of_ne_nil hb.1
  simp only
  rw [digits_of hc.2 (by simp)]
  obtain ⟨x, c, rfl⟩ := List.exists_cons_of_ne_nil hc.1
  simp only
  rw [digits_of hd.2 (by simp)]
  obtain ⟨x, d, rfl⟩ := List.exists_cons_of_ne_nil hd.1
  simp

theorem natStr_digits (n : Nat) : Digits (natStr n) := ⟨natStr_ne_nil n, fun _ h => natStr_digit h⟩

theorem digits_nil {d : Str} (h : ∀ c ∈ d, c.isDigit = true) : digits d = (d, []) := by
  have := digits_of (x := []) h (by simp)
  simpa using this

theorem fourNumbers_end (a b c d : Str) (ha : Digits a) (hb : Digits b) (hc : Digits c) (hd : Digits d) :
    fourNumbers (a ++ '.' :: (b ++ '.' :: (c ++ '.' :: d))) = none := by
  unfold fourNumbers
  rw [digits_of ha.2 (by simp)]
  obtain ⟨x, a, rfl⟩ := List.exists_cons_of_ne_nil ha.1
  simp only
  rw [digits_of hb.2 (by simp)]
  obtain ⟨x, b, rfl⟩ := List.exists_cons_of_ne_nil hb.1
  simp only
  rw [digits_of hc.2 (by simp)]
  obtain ⟨x, c, rfl⟩ := List.exists_cons_of_ne_nil hc.1
  simp only
  rw [digits_nil hd.2]
  obtain ⟨x, d, rfl⟩ := List.exists_cons_of_ne_nil hd.1
  rfl

theorem marks_version : Marks c!"Review Version: " versionMatch :=
  ⟨by decide, by decide, fun s hs => by
    have : startsWith c!"Review Version: " s = false := by
      rw [Bool.eq_false_iff, ne_eq, startsWith_prefix]; exact hs
    simp only [versionMatch, this]; rfl⟩

theorem marks_date : Marks c!"Date of Review: " dateMatch :=
  ⟨by decide, by decide, fun s hs => by
    have : startsWith c!"Date of Review: " s = false := by
      rw [Bool.eq_false_iff, ne_eq, startsWith_prefix]; exact hs
    simp only [dateMatch, this]; rfl⟩

theorem versionText_eq (v : Version) : versionText v = natStr v.majorRelease ++ '.' :: (natStr v.majorRevision ++ '.' ::
    (natStr v.minorRelease ++ '.' :: natStr v.minorRevision)) := by
  simp [versionText]

theorem versionMatch_line (v : Version) (r : Str) :
    versionMatch ((c!"Review Version: " ++ versionText v ++ c!"\n") ++ r) =
      some (versionText v, (c!"Review Version: " ++ versionText v ++ c!"\n").length) := by
  have h1 : startsWith c!"Review Version: " ((c!"Review Version: " ++ versionText v ++ c!"\n") ++ r) = true :=
    startsWith_prefix.2 ⟨versionText v ++ c!"\n" ++ r, by simp⟩
  have h2 : ((c!"Review Version: " ++ versionText v ++ c!"\n") ++ r).drop 16 = natStr v.majorRelease ++ '.' ::
      (natStr v.majorRevision ++ '.' :: (natStr v.minorRelease ++ '.' :: (natStr v.minorRevision ++ '\n' :: r))) := by
    simp [versionText]
  unfold versionMatch
  rw [if_pos h1, h2, fourNumbers_of _ _ _ _ _ (natStr_digits _) (natStr_digits _) (natStr_digits _) (natStr_digits _)]
  simp only [← versionText_eq]
  simp
  omega

theorem versionMatch_end (v : Version) : versionMatch (c!"Review Version: " ++ versionText v) = none := by
  have h1 : startsWith c!"Review Version: " (c!"Review Version: " ++ versionText v) = true :=
    startsWith_prefix.2 ⟨versionText v, by simp⟩
  unfold versionMatch
  rw [if_pos h1]
  have h2 : (c!"Review Version: " ++ versionText v).drop 16 = natStr v.majorRelease ++ '.' ::
      (natStr v.majorRevision ++ '.' :: (natStr v.minorRelease ++ '.' :: natStr v.minorRevision)) := by
    simp [versionText]
  rw [h2, fourNumbers_end _ _ _ _ (natStr_digits _) (natStr_digits _) (natStr_digits _) (natStr_digits _)]

theorem natStr_noPoint (n : Nat) : '.' ∉ natStr n := fun h => absurd (natStr_digit h) (by decide)

/-- The numbers that are read are those written, but the second and the third are exchanged. -/
theorem readVersion_text (v : Version) : readVersion (versionText v) = exchanged v := by
  unfold readVersion
  rw [versionText_eq, EcsVars.splitOn_cons (natStr_noPoint _), EcsVars.splitOn_cons (natStr_noPoint _),
    EcsVars.splitOn_cons (natStr_noPoint _), EcsVars.splitOn_none (natStr_noPoint _)]
  simp [number, parseNat_natStr, exchanged]

theorem dateChar_iff (c : Char) : dateChar c = true ↔ c.isDigit = true ∨ c = ' ' ∨ c = '-' := by
  simp [dateChar, or_assoc]

theorem takeWhile_date (d r : Str) (h : ∀ c ∈ d, dateChar c = true) (hr : ∀ c, r.head? = some c → dateChar c = false) :
    (d ++ r).takeWhile dateChar = d := by
  induction d with
  | nil =>
    cases r with
    | nil => rfl
    | cons c r => simp [hr c rfl]
  | cons c d ih =>
    simp only [List.cons_append, List.takeWhile_cons, h c List.mem_cons_self, if_true]
    rw [ih fun c hc => h c (List.mem_cons_of_mem _ hc)]

theorem dateMatch_line (d r : Str) (h : DateText d) :
    dateMatch ((c!"Date of Review: " ++ d ++ c!"\n") ++ r) =
      some (d, (c!"Date of Review: " ++ d ++ c!"\n").length) := by
  have h1 : startsWith c!"Date of Review: " ((c!"Date of Review: " ++ d ++ c!"\n") ++ r) = true :=
    startsWith_prefix.2 ⟨d ++ c!"\n" ++ r, by simp⟩
  have h2 : ((c!"Date of Review: " ++ d ++ c!"\n") ++ r).drop 16 = d ++ '\n' :: r := by simp
  have h3 : (d ++ '\n' :: r).takeWhile dateChar = d :=
    takeWhile_date d _ (fun c hc => (dateChar_iff c).2 (h.2 c hc)) (by simp; decide)
  unfold dateMatch
  rw [if_pos h1, h2]
  simp only [h3]
  rw [if_pos ⟨h.1, by simp [startsWith]⟩]
  simp
  omega

/-- A date with anything else in it is not found. -/
theorem dateMatch_other (d r : Str) (c : Char) (hc : c ∈ d) (hd : dateChar c = false) (hl : '\n' ∉ d) :
    dateMatch (c!"Date of Review: " ++ (d ++ r)) = none := by
  have h1 : startsWith c!"Date of Review: " (c!"Date of Review: " ++ (d ++ r)) = true :=
    startsWith_prefix.2 ⟨d ++ r, by simp⟩
  have h2 : (c!"Date of Review: " ++ (d ++ r)).drop 16 = d ++ r := by simp
  unfold dateMatch
  rw [if_pos h1, h2]
  simp only
  rw [if_neg]
  rintro ⟨-, h3⟩
  have key : ∀ d : Str, c ∈ d → '\n' ∉ d → ¬ c!"\n" <+: (d ++ r).drop ((d ++ r).takeWhile dateChar).length := by
    intro d
    induction d with
    | nil => simp
    | cons x d ih =>
      intro hc hl
      simp only [List.mem_cons, not_or] at hl
      by_cases hx : dateChar x = true
      · simp only [List.cons_append, List.takeWhile_cons, hx, if_true, List.length_cons, List.drop_succ_cons]
        rcases List.mem_cons.1 hc with rfl | hc
        · rw [hd] at hx; cases hx
        · exact ih hc hl.2
      · simp only [List.cons_append, List.takeWhile_cons, hx]
        simp only [Bool.false_eq_true, if_false, List.length_nil, List.drop_zero, List.cons_prefix_cons]
        exact fun h => hl.1 h.1
  exact key d hc hl (startsWith_prefix.1 h3)

theorem date_line_no_version (d : Str) (h : DateText d) : ¬ c!"Review Version: " <:+: c!"Date of Review: " ++ d := by
  intro hi
  have hv : 'V' ∈ c!"Date of Review: " ++ d := hi.subset (by decide)
  rcases List.mem_append.1 hv with hv | hv
  · revert hv; decide
  · rcases h.2 _ hv with h | h | h <;> revert h <;> decide

/-- Date and version of a review with details come back, the version with minor release and major revision exchanged. -/
theorem details_back (date : Str → Option Str) (r : EcsReview) (d' : Str) (hd : DateText r.date)
    (hd' : date r.date = some d') (hne : r.details ≠ []) (hu : Unmarked (join c!"\n" r.details)) (x : Read) :
    comment date (text r) x = .ok ⟨some (exchanged r.version), d', x.texts ++ keep (join c!"\n" r.details)⟩ := by
  have ht : text r = (c!"Date of Review: " ++ r.date) ++ '\n' ::
      ((c!"Review Version: " ++ versionText r.version ++ c!"\n") ++ join c!"\n" r.details) := by
    unfold text
    rw [join_cons (by simp), join_cons hne]
    simp
  have h1 : search versionMatch (text r) = some (versionText r.version) := by
    rw [ht, search_skip marks_version (date_line_no_version _ hd)]
    exact search_hit (by simp) (versionMatch_line _ _)
  have h2 : remove versionMatch 0 (text r) = (c!"Date of Review: " ++ r.date ++ c!"\n") ++ join c!"\n" r.details := by
    rw [ht, remove_skip marks_version (date_line_no_version _ hd), remove_hit (by simp) (versionMatch_line _ _),
      remove_none marks_version hu.1]
    simp
  have h3 : search dateMatch ((c!"Date of Review: " ++ r.date ++ c!"\n") ++ join c!"\n" r.details) = some r.date :=
    search_hit (by simp) (dateMatch_line _ _ hd)
  have h4 : remove dateMatch 0 ((c!"Date of Review: " ++ r.date ++ c!"\n") ++ join c!"\n" r.details) =
      join c!"\n" r.details := by
    rw [remove_hit (by simp) (dateMatch_line _ _ hd), remove_none marks_date hu.2]
  unfold comment
  simp only [h1, h2, h3, h4, hd', readVersion_text]

example : DateText c!"2010-05-31" ∧ Unmarked (join c!"\n" [c!"Checked the energy balance."]) := by
  refine ⟨⟨by decide, by decide⟩, ?_⟩
  unfold Unmarked
  decide

/-- Without details the version is not found, and its line is kept as a text. -/
theorem no_details_back (date : Str → Option Str) (r : EcsReview) (d' : Str) (hd : DateText r.date)
    (hd' : date r.date = some d') (he : r.details = []) (x : Read) :
    comment date (text r) x = .ok ⟨x.version, d', x.texts ++ [c!"Review Version: " ++ versionText r.version]⟩ := by
  have hR : 'R' ∉ versionText r.version := by
    rw [versionText_eq]
    simp only [List.mem_append, List.mem_cons, not_or]
    have : ∀ n, 'R' ∉ natStr n := fun n h => absurd (natStr_digit h) (by decide)
    exact ⟨this _, by decide, this _, by decide, this _, by decide, this _⟩
  have ht : text r = (c!"Date of Review: " ++ r.date) ++ '\n' :: (c!"Review Version: " ++ versionText r.version) := by
    unfold text
    rw [join_cons (by simp), he]
    simp [join]
  have h0 : search versionMatch (c!"Review Version: " ++ versionText r.version) = none := by
    have hm := versionMatch_end r.version
    show search versionMatch ('R' :: (c!"eview Version: " ++ versionText r.version)) = none
    unfold search
    rw [show ('R' :: (c!"eview Version: " ++ versionText r.version)) = c!"Review Version: " ++ versionText r.version
      from rfl, hm]
    refine search_none marks_version fun hi => ?_
    have : 'R' ∈ c!"eview Version: " ++ versionText r.version := hi.subset (by decide)
    rcases List.mem_append.1 this with h | h
    · revert h; decide
    · exact hR h
  have h1 : search versionMatch (text r) = none := by
    rw [ht, search_skip marks_version (date_line_no_version _ hd), h0]
  have ht' : text r = (c!"Date of Review: " ++ r.date ++ c!"\n") ++ (c!"Review Version: " ++ versionText r.version) := by
    rw [ht]; simp
  have h3 : search dateMatch (text r) = some r.date := by
    rw [ht']; exact search_hit (by simp) (dateMatch_line _ _ hd)
  have hnd : ¬ c!"Date of Review: " <:+: c!"Review Version: " ++ versionText r.version := by
    intro hi
    have hD : 'D' ∈ c!"Review Version: " ++ versionText r.version := hi.subset (by decide)
    rcases List.mem_append.1 hD with h | h
    · revert h; decide
    · rw [versionText_eq] at h
      simp only [List.mem_append, List.mem_cons] at h
      have : ∀ n, 'D' ∉ natStr n := fun n h => absurd (natStr_digit h) (by decide)
      rcases h with h | h | h | h | h | h | h
      all_goals first | exact this _ h | (revert h; decide)
  have h4 : remove dateMatch 0 (text r) = c!"Review Version: " ++ versionText r.version := by
    rw [ht', remove_hit (by simp) (dateMatch_line _ _ hd), remove_none marks_date hnd]
  have hk : keep (c!"Review Version: " ++ versionText r.version) = [c!"Review Version: " ++ versionText r.version] := by
    unfold keep
    rw [if_pos]
    simp [LangText.notBlank, isSpaceStr, pySpace]
  unfold comment
  simp only [h1, h3, h4, hd', hk]

/-- A date with a time in it is not found: the review is dated 1900-01-01 and the line stays. -/
theorem date_time_lost (date : Str → Option Str) (r : EcsReview) (hiso : IsoText r.date) (hn : ¬ DateText r.date)
    (hne : r.details ≠ []) (hud : Unmarked (join c!"\n" r.details)) (x : Read) :
    comment date (text r) x = .ok ⟨some (exchanged r.version), x.date,
      x.texts ++ [c!"Date of Review: " ++ r.date ++ '\n' :: join c!"\n" r.details]⟩ := by
  obtain ⟨c, hc, hcd⟩ : ∃ c ∈ r.date, ¬ (c.isDigit = true ∨ c = ' ' ∨ c = '-') := by
    by_contra hcon
    refine hn ⟨hiso.1, fun c hc => ?_⟩
    by_contra h
    exact hcon ⟨c, hc, h⟩
  have hcd' : dateChar c = false := by
    rw [Bool.eq_false_iff, ne_eq, dateChar_iff]; exact hcd
  have hnot : ∀ y : Char, y.isDigit = false → y ∉ c!" -T:Z+." → y ∉ r.date := by
    intro y h1 h2 h3
    rcases hiso.2 y h3 with h | h
    · rw [h1] at h; cases h
    · exact h2 h
  have hl : '\n' ∉ r.date := hnot _ (by decide) (by decide)
  have hV : 'V' ∉ r.date := hnot _ (by decide) (by decide)
  have hD : 'D' ∉ r.date := hnot _ (by decide) (by decide)
  have hnv : ¬ c!"Review Version: " <:+: c!"Date of Review: " ++ r.date := by
    intro hi
    have : 'V' ∈ c!"Date of Review: " ++ r.date := hi.subset (by decide)
    rcases List.mem_append.1 this with h | h
    · exact absurd h (by decide)
    · exact hV h
  have ht : text r = (c!"Date of Review: " ++ r.date) ++ '\n' ::
      ((c!"Review Version: " ++ versionText r.version ++ c!"\n") ++ join c!"\n" r.details) := by
    unfold text
    rw [join_cons (by simp), join_cons hne]
    simp
  have h1 : search versionMatch (text r) = some (versionText r.version) := by
    rw [ht, search_skip marks_version hnv]
    exact search_hit (by simp) (versionMatch_line _ _)
  have h2 : remove versionMatch 0 (text r) = c!"Date of Review: " ++ (r.date ++ '\n' :: join c!"\n" r.details) := by
    rw [ht, remove_skip marks_version hnv, remove_hit (by simp) (versionMatch_line _ _), remove_none marks_version hud.1]
    simp
  have h3 : search dateMatch (c!"Date of Review: " ++ (r.date ++ '\n' :: join c!"\n" r.details)) = none := by
    have hm := dateMatch_other r.date ('\n' :: join c!"\n" r.details) c hc hcd' hl
    show search dateMatch ('D' :: (c!"ate of Review: " ++ (r.date ++ '\n' :: join c!"\n" r.details))) = none
    unfold search
    rw [show ('D' :: (c!"ate of Review: " ++ (r.date ++ '\n' :: join c!"\n" r.details))) =
      c!"Date of Review: " ++ (r.date ++ '\n' :: join c!"\n" r.details) from rfl, hm]
    rw [← List.append_assoc]
    rw [search_skip marks_date (fun hi => ?_), search_none marks_date hud.2]
    have : 'D' ∈ c!"ate of Review: " ++ r.date := hi.subset (by decide)
    rcases List.mem_append.1 this with h | h
    · revert h; decide
    · exact hD h
  have hk : ∀ z : Str, keep (c!"Date of Review: " ++ z) = [c!"Date of Review: " ++ z] := by
    intro z
    unfold keep
    rw [if_pos]
    simp [LangText.notBlank, isSpaceStr, pySpace]
  unfold comment
  simp only [h1, h2, h3, readVersion_text, hk]
  simp

example : IsoText c!"2010-05-31T12:00:00" ∧ ¬ DateText c!"2010-05-31T12:00:00" := by
  refine ⟨⟨by decide, by decide⟩, fun h => ?_⟩
  have := h.2 'T' (by decide)
  revert this
  decide

/-! ### What is found in the texts of others -/

theorem digits_spec (s : Str) : s = (digits s).1 ++ (digits s).2 ∧ ∀ c ∈ (digits s).1, c.isDigit = true := by
  unfold digits
  exact ⟨(List.takeWhile_append_dropWhile ..).symm, fun c hc => List.mem_takeWhile_imp hc⟩

theorem fourNumbers_iff (s v r : Str) : fourNumbers s = some (v, r) ↔
    ∃ a b c d, Digits a ∧ Digits b ∧ Digits c ∧ Digits d ∧ v = a ++ '.' :: (b ++ '.' :: (c ++ '.' :: d)) ∧
      s = a ++ '.' :: (b ++ '.' :: (c ++ '.' :: (d ++ '\n' :: r))) := by
  constructor
  · intro h
    unfold fourNumbers at h
    split at h
    · rename_i x a s1 h1
      obtain ⟨e1, d1⟩ := digits_spec s
      rw [h1] at e1 d1
      split at h
      · rename_i y b s2 h2
        obtain ⟨e2, d2⟩ := digits_spec s1
        rw [h2] at e2 d2
        split at h
        · rename_i z c s3 h3
          obtain ⟨e3, d3⟩ := digits_spec s2
          rw [h3] at e3 d3
          split at h
          · rename_i w d s4 h4
            obtain ⟨e4, d4⟩ := digits_spec s3
            rw [h4] at e4 d4
            simp only [Option.some.injEq, Prod.mk.injEq] at h
            obtain ⟨rfl, rfl⟩ := h
            refine ⟨x :: a, y :: b, z :: c, w :: d, ⟨by simp, d1⟩, ⟨by simp, d2⟩, ⟨by simp, d3⟩, ⟨by simp, d4⟩, rfl, ?_⟩
            rw [e1, e2, e3, e4]
          · cases h
        · cases h
      · cases h
    · cases h
  · rintro ⟨a, b, c, d, ha, hb, hc, hd, rfl, rfl⟩
    exact fourNumbers_of a b c d r ha hb hc hd

/-- A version stands at the beginning of a text: the mark, four numbers, the end of the line. -/
theorem versionMatch_iff (s g : Str) (k : Nat) : versionMatch s = some (g, k) ↔
    ∃ a b c d r, Digits a ∧ Digits b ∧ Digits c ∧ Digits d ∧ g = a ++ '.' :: (b ++ '.' :: (c ++ '.' :: d)) ∧
      s = c!"Review Version: " ++ g ++ '\n' :: r ∧ k = g.length + 17 := by
  unfold versionMatch
  by_cases h : startsWith c!"Review Version: " s = true
  · obtain ⟨t, rfl⟩ := startsWith_prefix.1 h
    rw [if_pos h, show (c!"Review Version: " ++ t).drop 16 = t by simp]
    cases hf : fourNumbers t with
    | none =>
      simp only [reduceCtorEq, false_iff]
      rintro ⟨a, b, c, d, r, ha, hb, hc, hd, rfl, hs, -⟩
      rw [List.append_assoc] at hs
      have hs := List.append_cancel_left hs
      have : fourNumbers t = some (_, r) := (fourNumbers_iff t _ r).2 ⟨a, b, c, d, ha, hb, hc, hd, rfl, by rw [hs]; simp⟩
      rw [hf] at this
      cases this
    | some p =>
      obtain ⟨v, r⟩ := p
      obtain ⟨a, b, c, d, ha, hb, hc, hd, hv, ht⟩ := (fourNumbers_iff t v r).1 hf
      simp only [Option.some.injEq, Prod.mk.injEq]
      constructor
      · rintro ⟨rfl, rfl⟩
        refine ⟨a, b, c, d, r, ha, hb, hc, hd, hv, by rw [ht, hv]; simp, by omega⟩
      · rintro ⟨a', b', c', d', r', ha', hb', hc', hd', hg, hs, rfl⟩
        rw [List.append_assoc] at hs
        have hs := List.append_cancel_left hs
        have : fourNumbers t = some (g, r') :=
          (fourNumbers_iff t g r').2 ⟨a', b', c', d', ha', hb', hc', hd', hg, by rw [hs, hg]; simp⟩
        rw [hf] at this
        simp only [Option.some.injEq, Prod.mk.injEq] at this
        exact ⟨this.1, by rw [this.1]; omega⟩
  · rw [if_neg h]
    simp only [reduceCtorEq, false_iff]
    rintro ⟨a, b, c, d, r, -, -, -, -, -, rfl, -⟩
    exact h (startsWith_prefix.2 ⟨g ++ '\n' :: r, by simp⟩)

/-- A date stands at the beginning of a text: the mark, digits, blanks and hyphens, the end of the line. -/
theorem dateMatch_iff (s g : Str) (k : Nat) : dateMatch s = some (g, k) ↔
    DateText g ∧ (∃ r, s = c!"Date of Review: " ++ g ++ '\n' :: r) ∧ k = g.length + 17 := by
  constructor
  · intro h
    unfold dateMatch at h
    by_cases hs : startsWith c!"Date of Review: " s = true
    · obtain ⟨t, rfl⟩ := startsWith_prefix.1 hs
      rw [if_pos hs, show (c!"Date of Review: " ++ t).drop 16 = t by simp] at h
      simp only at h
      split at h
      · rename_i hc
        simp only [Option.some.injEq, Prod.mk.injEq] at h
        obtain ⟨rfl, rfl⟩ := h
        refine ⟨⟨hc.1, fun c hc => (dateChar_iff c).1 (List.mem_takeWhile_imp hc)⟩, ?_, by omega⟩
        obtain ⟨r, hr⟩ := startsWith_prefix.1 hc.2
        refine ⟨r, ?_⟩
        rw [List.append_assoc]
        congr 1
        have hd : t.drop (t.takeWhile dateChar).length = t.dropWhile dateChar := by
          have := congrArg (List.drop (t.takeWhile dateChar).length) (List.takeWhile_append_dropWhile (p := dateChar) (l := t))
          rw [List.drop_left] at this
          exact this.symm
        rw [hd] at hr
        conv_lhs => rw [← List.takeWhile_append_dropWhile (p := dateChar) (l := t), ← hr]
        rfl
      · cases h
    · rw [if_neg hs] at h; cases h
  · rintro ⟨hd, ⟨r, rfl⟩, rfl⟩
    have := dateMatch_line g r hd
    rw [show c!"Date of Review: " ++ g ++ '\n' :: r = (c!"Date of Review: " ++ g ++ c!"\n") ++ r by simp, this]
    simp

/-! ## Reviewers -/

theorem join_snoc (sep : Str) : ∀ (l : List Str) (x : Str), l ≠ [] → join sep (l ++ [x]) = join sep l ++ sep ++ x
  | [], _, h => absurd rfl h
  | [a], x, _ => by simp [join]
  | a :: b :: l, x, _ => by
    have := join_snoc sep (b :: l) x (by simp)
    simp only [List.cons_append] at this ⊢
    rw [join, this, join]
    simp

/-- The reviewers are named, their identifiers can be converted and their files, as far as there are any, have names. -/
def Good (env : Refs.Env) (x : Refs.Ref) (n u : Str) : Prop :=
  Named x n ∧ env.conv x.id = .ok u ∧ (Refs.getFile env.contacts x = none ∨
    ∃ l f name, env.contacts = some l ∧ Refs.getFile env.contacts x = some f ∧ Refs.Spec.IsFile l f ∧
      (env.contactFile f).name = some name)

/-- The address a reviewer gets. -/
def emailOf (env : Refs.Env) (x : Refs.Ref) : Str :=
  match Refs.getFile env.contacts x with
  | none => []
  | some f => (env.contactFile f).email.getD []

theorem reviewer_step (env : Refs.Env) (x : Refs.Ref) (n u : Str) (h : Good env x n u) (hd : Refs.Holder)
    (m : List Refs.ContactEntry) : ∃ m', Refs.contact env .reviewer x (hd, m) =
      .ok (⟨some u, some (Refs.addName .reviewer hd.name n), some (emailOf env x)⟩, m') ∧
      (∀ w, w ∈ m'.map (·.id) → w ∈ m.map (·.id) ∨ w = u) := by
  obtain ⟨⟨hid, hs, -⟩, hc, hf⟩ := h
  rcases hf with hf | ⟨l, f, name, hl, hg, hfile, hname⟩
  · refine ⟨m, ?_, fun w hw => .inl hw⟩
    unfold Refs.contact Refs.contactInit emailOf
    simp only [if_neg hid, hc, hs, Refs.contactShort, Refs.bind_ok', hf]
    simp
  · refine ⟨if u ∈ m.map (·.id) then m else m ++ [⟨false, u, name, (env.contactFile f).email.getD []⟩], ?_, ?_⟩
    · unfold Refs.contact Refs.contactInit emailOf
      unfold Refs.Spec.IsFile at hfile
      rw [hl] at hg
      simp only [hl, hg, if_neg hid, hc, hs, Refs.contactShort, Refs.bind_ok', Refs.openFile, if_pos hfile, hname]
      simp
    · intro w hw
      split at hw
      · exact .inl hw
      · simp only [List.map_append, List.map_cons, List.map_nil, List.mem_append, List.mem_singleton] at hw
        exact hw

theorem reviewers_named (env : Refs.Env) : ∀ (l : List (Refs.Ref × Str × Str)) (names : List Str) (hd : Refs.Holder)
    (m : List Refs.ContactEntry), (∀ x ∈ l, Good env x.1 x.2.1 x.2.2) → names ≠ [] →
    hd.name = some (join c!"/" names) →
    ∃ id email m', reviewers env (l.map (·.1)) (names, hd, m) =
      .ok (names ++ l.map (·.2.1), ⟨id, some (join c!"/" (names ++ l.map (·.2.1))), email⟩, m') ∧
      (∀ w, w ∈ m'.map (·.id) → w ∈ m.map (·.id) ∨ w ∈ l.map (·.2.2)) ∧
      (l = [] → id = hd.id ∧ email = hd.email)
  | [], names, hd, m, _, _, hn => by
    refine ⟨hd.id, hd.email, m, ?_, fun w hw => .inl hw, fun _ => ⟨rfl, rfl⟩⟩
    simp only [List.map_nil, reviewers, List.append_nil, ← hn]
  | (x, n, u) :: l, names, hd, m, h, hne, hn => by
    have hg := h _ List.mem_cons_self
    obtain ⟨m1, h1, h2⟩ := reviewer_step env x n u hg hd m
    have hname : reviewerName x.short = .ok n := by
      rw [hg.1.2.1]; simp [reviewerName, hg.1.2.2]
    have hjoin : Refs.addName .reviewer hd.name n = join c!"/" (names ++ [n]) := by
      rw [hn, join_snoc _ _ _ hne]; rfl
    obtain ⟨id, email', m', h3, h4, h5⟩ := reviewers_named env l (names ++ [n])
      ⟨some u, some (join c!"/" (names ++ [n])), some (emailOf env x)⟩ m1 (fun y hy => h y (List.mem_cons_of_mem _ hy)) (by simp) rfl
    refine ⟨id, email', m', ?_, fun w hw => ?_, by simp⟩
    · simp only [List.map_cons, reviewers, hname, Refs.bind_ok', h1, hjoin]
      rw [h3]
      simp
    · rcases h4 w hw with h | h
      · rcases h2 w h with h | h
        · exact .inl h
        · right; simp [h]
      · right; simp only [List.map_cons, List.mem_cons]; exact .inr h

theorem reviewers_all (env : Refs.Env) (l : List (Refs.Ref × Str × Str)) (m : List Refs.ContactEntry)
    (h : ∀ x ∈ l, Good env x.1 x.2.1 x.2.2) (hne : l ≠ []) :
    ∃ id email m', reviewers env (l.map (·.1)) ([], ⟨none, none, none⟩, m) =
      .ok (l.map (·.2.1), ⟨id, some (join c!"/" (l.map (·.2.1))), email⟩, m') ∧
      (∀ w, w ∈ m'.map (·.id) → w ∈ m.map (·.id) ∨ w ∈ l.map (·.2.2)) ∧
      (∀ x, l = [x] → id = some x.2.2 ∧ email = some (emailOf env x.1)) := by
  cases l with
  | nil => exact absurd rfl hne
  | cons a l =>
    obtain ⟨x, n, u⟩ := a
    have hg := h _ List.mem_cons_self
    obtain ⟨m1, h1, h2⟩ := reviewer_step env x n u hg ⟨none, none, none⟩ m
    have hname : reviewerName x.short = .ok n := by
      rw [hg.1.2.1]; simp [reviewerName, hg.1.2.2]
    obtain ⟨id, email', m', h3, h4, h5⟩ := reviewers_named env l [n]
      ⟨some u, some n, some (emailOf env x)⟩ m1 (fun y hy => h y (List.mem_cons_of_mem _ hy)) (by simp) rfl
    refine ⟨id, email', m', ?_, fun w hw => ?_, ?_⟩
    · simp only [List.map_cons, reviewers, hname, Refs.bind_ok', h1]
      show reviewers env _ ([n], ⟨some u, some n, some (emailOf env x)⟩, m1) = _
      rw [h3]
      rfl
    · rcases h4 w hw with h | h
      · rcases h2 w h with h | h
        · exact .inl h
        · right; simp [h]
      · right; simp only [List.map_cons, List.mem_cons]; exact .inr h
    · intro y hy
      simp only [List.cons.injEq] at hy
      rw [(h5 hy.2).1, (h5 hy.2).2, ← hy.1]
      exact ⟨rfl, rfl⟩

/-- A review by several people bears one identifier, made from their names, which no entry of the master data has unless
it happens to be that of a contact. -/
theorem several_reviewers (env : Refs.Env) (limit : Bool) (uuidOf : Str → Str) (date : Str → Option Str)
    (l : List (Refs.Ref × Str × Str)) (h : ∀ x ∈ l, Good env x.1 x.2.1 x.2.2) (hl : 1 < l.length)
    (type : Option Str) (details : List Str) (c : Read)
    (hc : comments date details ⟨none, c!"1900-01-01", typeTexts type⟩ = .ok c)
    (h40 : (join c!"/" (l.map (·.2.1))).length ≤ 40) (s : State) :
    ∃ e s', toEcs env limit uuidOf date ⟨type, details, l.map (·.1)⟩ s = .ok (some e, s') ∧
      e.reviewer.name = some (join c!"/" (l.map (·.2.1))) ∧
      e.reviewer.id = some (uuidOf (join c!"/" (l.map (·.2.1)))) ∧
      (∀ w, w ∈ s'.master.map (·.id) → w ∈ s.master.map (·.id) ∨ w ∈ l.map (·.2.2)) := by
  have hne : l ≠ [] := by intro he; rw [he] at hl; simp at hl
  obtain ⟨id, email, m', h1, h2, -⟩ := reviewers_all env l s.master h hne
  have hj : joinReviewers limit uuidOf (l.map (·.2.1)) ⟨id, some (join c!"/" (l.map (·.2.1))), email⟩ =
      .ok ⟨some (uuidOf (join c!"/" (l.map (·.2.1)))), some (join c!"/" (l.map (·.2.1))), email⟩ := by
    unfold joinReviewers
    simp only
    rw [if_neg (by omega), if_pos ⟨trivial, by simpa using hl⟩]
  have hne' : ¬ (l.map (·.1) = []) := by simpa using hne
  refine ⟨⟨(defaultVersion c.version s.counter).1, c.date, c.texts,
      ⟨some (uuidOf (join c!"/" (l.map (·.2.1)))), some (join c!"/" (l.map (·.2.1))), email⟩⟩, ⟨(defaultVersion c.version s.counter).2, m'⟩,
    ?_, rfl, rfl, h2⟩
  unfold toEcs
  simp only [hc, Refs.bind_ok', h1, hj, if_neg hne']

/-- Names of more than forty characters together stop the conversion. -/
theorem long_names_stop (env : Refs.Env) (uuidOf : Str → Str) (date : Str → Option Str)
    (l : List (Refs.Ref × Str × Str)) (h : ∀ x ∈ l, Good env x.1 x.2.1 x.2.2) (hne : l ≠ [])
    (type : Option Str) (details : List Str) (c : Read)
    (hc : comments date details ⟨none, c!"1900-01-01", typeTexts type⟩ = .ok c)
    (h40 : 40 < (join c!"/" (l.map (·.2.1))).length) (s : State) :
    toEcs env true uuidOf date ⟨type, details, l.map (·.1)⟩ s = .error .valueError := by
  obtain ⟨id, email, m', h1, h2, -⟩ := reviewers_all env l s.master h hne
  have hj : joinReviewers true uuidOf (l.map (·.2.1)) ⟨id, some (join c!"/" (l.map (·.2.1))), email⟩ =
      .error .valueError := by
    unfold joinReviewers
    simp only
    rw [if_pos ⟨trivial, h40⟩]
  unfold toEcs
  simp only [hc, Refs.bind_ok', h1, hj]
  rfl

/-- A reviewer without a short description stops the conversion, even if their file says their name. -/
theorem unnamed_reviewer_stops (env : Refs.Env) (limit : Bool) (uuidOf : Str → Str) (date : Str → Option Str) (x : Refs.Ref)
    (l : List Refs.Ref) (hx : x.short = .absent) (type : Option Str) (details : List Str) (c : Read)
    (hc : comments date details ⟨none, c!"1900-01-01", typeTexts type⟩ = .ok c) (s : State) :
    toEcs env limit uuidOf date ⟨type, details, x :: l⟩ s = .error .keyError := by
  unfold toEcs
  simp only [hc, Refs.bind_ok', reviewers, hx, reviewerName]
  rfl

/-- A review without a reviewer is lost. -/
theorem no_reviewer_lost (env : Refs.Env) (limit : Bool) (uuidOf : Str → Str) (date : Str → Option Str)
    (type : Option Str) (details : List Str) (c : Read)
    (hc : comments date details ⟨none, c!"1900-01-01", typeTexts type⟩ = .ok c) (s : State) :
    ∃ s', toEcs env limit uuidOf date ⟨type, details, []⟩ s = .ok (none, s') := by
  refine ⟨⟨(defaultVersion c.version s.counter).2, s.master⟩, ?_⟩
  unfold toEcs
  simp only [hc, Refs.bind_ok', reviewers, joinReviewers]
  simp

/-- The name of a reviewer is the text of the short description, or the first one that is not empty. -/
theorem reviewerName_iff (s : Refs.Short) (n : Str) : reviewerName s = .ok n ↔ NameOf s n := by
  unfold NameOf
  cases s with
  | absent => simp [reviewerName]
  | plain t =>
    by_cases h : t = []
    · subst h
      simp only [reviewerName, if_true, reduceCtorEq, Refs.Short.plain.injEq, false_or, false_and, exists_const, or_false,
        false_iff]
      rintro ⟨h1, h2⟩
      exact h1 h2.symm
    · simp only [reviewerName, if_neg h, Except.ok.injEq, reduceCtorEq, Refs.Short.plain.injEq, false_or, false_and,
        exists_const, or_false]
      constructor
      · rintro rfl; exact ⟨h, rfl⟩
      · exact fun h => h.2
  | one t =>
    by_cases h : t = []
    · subst h
      simp only [reviewerName, if_true, reduceCtorEq, Refs.Short.one.injEq, false_or, false_and, exists_const, or_false,
        false_iff]
      rintro ⟨h1, h2⟩
      exact h1 h2.symm
    · simp only [reviewerName, if_neg h, Except.ok.injEq, reduceCtorEq, Refs.Short.one.injEq, false_or, false_and,
        exists_const, or_false]
      constructor
      · rintro rfl; exact ⟨h, rfl⟩
      · exact fun h => h.2
  | many l =>
    simp only [reviewerName, reduceCtorEq, Refs.Short.many.injEq, false_or]
    induction l with
    | nil => simp
    | cons t l ih =>
      by_cases h : t = []
      · subst h
        rw [List.filter_cons_of_neg (by simp), ih]
        refine and_congr_right fun hn => ?_
        constructor
        · rintro ⟨a, b, rfl, h1⟩
          exact ⟨[] :: a, b, rfl, by simpa using h1⟩
        · rintro ⟨a, b, h1, h2⟩
          cases a with
          | nil => cases h1; exact absurd rfl hn
          | cons w a => cases h1; exact ⟨a, b, rfl, fun w hw => h2 w (List.mem_cons_of_mem _ hw)⟩
      · rw [List.filter_cons_of_pos (by simpa using h)]
        simp only [Except.ok.injEq]
        constructor
        · rintro rfl; exact ⟨h, [], l, rfl, by simp⟩
        · rintro ⟨h1, a, b, h2, h3⟩
          cases a with
          | nil => cases h2; rfl
          | cons w a => cases h2; exact absurd (h3 _ List.mem_cons_self) h

example : NameOf (.many [[], c!"A. Reviewer", c!"Ein Gutachter"]) c!"A. Reviewer" :=
  ⟨by decide, .inr (.inr ⟨[[]], [c!"Ein Gutachter"], rfl, by simp⟩)⟩

/-- All texts without marks are kept, in their order, and nothing else happens. -/
theorem texts_kept (date : Str → Option Str) : ∀ (l : List Str) (r : Read), (∀ x ∈ l, Unmarked x) →
    comments date l r = .ok { r with texts := r.texts ++ l.filter LangText.notBlank }
  | [], r, _ => by simp [comments]
  | x :: l, r, h => by
    have hx := h x List.mem_cons_self
    have h1 : comment date x r = .ok { r with texts := r.texts ++ keep x } := by
      unfold comment
      simp only [search_none marks_version hx.1, search_none marks_date hx.2]
    unfold comments
    rw [h1, Refs.bind_ok', texts_kept date l _ (fun y hy => h y (List.mem_cons_of_mem _ hy))]
    unfold keep
    by_cases hb : LangText.notBlank x = true
    · rw [if_pos hb, List.filter_cons_of_pos hb]
      simp
    · rw [if_neg hb, List.filter_cons_of_neg hb]
      simp

/-- A date that is found but cannot be read stops the conversion, wherever its text is among the details. -/
theorem wrong_date_stops (date : Str → Option Str) (d rest : Str) (hd : DateText d) (hn : date d = none)
    (hv : ¬ c!"Review Version: " <:+: c!"Date of Review: " ++ d ++ c!"\n" ++ rest) (l l' : List Str)
    (hl : ∀ x ∈ l, Unmarked x) (r : Read) :
    comments date (l ++ (c!"Date of Review: " ++ d ++ c!"\n" ++ rest) :: l') r = .error .valueError := by
  have key : ∀ r : Read, comment date (c!"Date of Review: " ++ d ++ c!"\n" ++ rest) r = .error .valueError := by
    intro r
    have h3 : search dateMatch ((c!"Date of Review: " ++ d ++ c!"\n") ++ rest) = some d :=
      search_hit (by simp) (dateMatch_line _ _ hd)
    unfold comment
    simp only [search_none marks_version hv, h3, hn]
  induction l generalizing r with
  | nil =>
    rw [List.nil_append]
    unfold comments
    rw [key r]
    rfl
  | cons x l ih =>
    have hx := hl x List.mem_cons_self
    have h1 : comment date x r = .ok { r with texts := r.texts ++ keep x } := by
      unfold comment
      simp only [search_none marks_version hx.1, search_none marks_date hx.2]
    rw [List.cons_append, comments, h1, Refs.bind_ok']
    exact ih (fun y hy => hl y (List.mem_cons_of_mem _ hy)) _

example : DateText c!"31-05-2010" ∧ ¬ c!"Review Version: " <:+: c!"Date of Review: " ++ c!"31-05-2010" ++ c!"\n" ++ c!"Fine." :=
  ⟨⟨by decide, by decide⟩, by decide⟩

/-! ## There and back -/

/-- The version that comes back. -/
def versionBack (v : Version) (k : Nat) : Version := if v.majorRelease = 0 then ⟨1, 0, k, 0⟩ else exchanged v

/-- A review that was written by this program comes back with its date, reviewer and details, to which its kind has been
added, and with its version changed. -/
theorem round_trip (env : Refs.Env) (limit : Bool) (uuidOf : Str → Str) (date : Str → Option Str) (r : EcsReview)
    (d' u u' : Str) (hd : DateText r.date) (hd' : date r.date = some d') (hne : r.details ≠ [])
    (hu : Unmarked (join c!"\n" r.details)) (type : Option Str)
    (hg : Good env (Refs.written c!"contacts" u r.name) r.name u') (h40 : r.name.length ≤ 40) (s : State) :
    ∃ m', toEcs env limit uuidOf date ⟨type, [text r], [Refs.written c!"contacts" u r.name]⟩ s =
      .ok (some ⟨versionBack r.version s.counter, d', typeTexts type ++ keep (join c!"\n" r.details),
          ⟨some u', some r.name, some (emailOf env (Refs.written c!"contacts" u r.name))⟩⟩,
        ⟨if r.version.majorRelease = 0 then s.counter + 1 else s.counter, m'⟩) := by
  obtain ⟨id, email, m', h1, h2, h3⟩ := reviewers_all env [(Refs.written c!"contacts" u r.name, r.name, u')] s.master
    (by simpa using hg) (by simp)
  rw [(h3 _ rfl).1, (h3 _ rfl).2] at h1
  refine ⟨m', ?_⟩
  simp only [List.map_cons, List.map_nil, join] at h1
  generalize emailOf env (Refs.written c!"contacts" u r.name) = email at h1 ⊢
  have hj : joinReviewers limit uuidOf [r.name] ⟨some u', some r.name, some email⟩ =
      .ok ⟨some u', some r.name, some email⟩ := by
    unfold joinReviewers
    simp only
    rw [if_neg (by omega), if_neg (by simp)]
  unfold toEcs
  simp only [comments, details_back date r d' hd hd' hne hu, Refs.bind_ok']
  rw [h1]
  simp only [Refs.bind_ok', hj]
  unfold defaultVersion versionBack
  by_cases h0 : r.version.majorRelease = 0
  · simp [exchanged, h0]
  · simp [exchanged, h0]

/-- How the kinds are called in ILCD, ECS2_to_ILCD1_conversion.py:1753-1757. -/
def label : Kind → Str
  | .internal => c!"Independent internal review"
  | .external => c!"Independent external review"

/-- Both conversions of a review: whatever their address is, as long as there is one, the reviewer is said to be from
inside; this is added to the details, which grow with each conversion. -/
theorem there_and_back (env : Refs.Env) (limit system : Bool) (uuidOf : Str → Str) (conv : Str → Py Str)
    (date : Str → Option Str) (r : EcsReview) (e d' u u' : Str) (he : r.email = some e) (hene : e ≠ [])
    (hs : system = true ∨ e ≠ c!"support@ecoinvent.org") (hconv : conv r.id = .ok u)
    (hd : DateText r.date) (hd' : date r.date = some d') (hne : r.details ≠ [])
    (hu : Unmarked (join c!"\n" r.details)) (hb : LangText.notBlank (join c!"\n" r.details) = true)
    (hg : Good env (Refs.written c!"contacts" u r.name) r.name u') (h40 : r.name.length ≤ 40) (s : State) :
    ∃ w k m', toIlcd system conv r = .ok (some w) ∧
      toEcs env limit uuidOf date ⟨w.kind.map label, [w.text], [Refs.written c!"contacts" w.reviewer.1 w.reviewer.2]⟩ s =
      .ok (some ⟨versionBack r.version s.counter, d',
          [c!"Review type: Independent internal review", join c!"\n" r.details],
          ⟨some u', some r.name, some (emailOf env (Refs.written c!"contacts" u r.name))⟩⟩, ⟨k, m'⟩) := by
  obtain ⟨m', h⟩ := round_trip env limit uuidOf date r d' u u' hd hd' hne hu (some c!"Independent internal review") hg h40 s
  refine ⟨⟨kind r.email, text r, (u, r.name)⟩, if r.version.majorRelease = 0 then s.counter + 1 else s.counter, m', ?_, ?_⟩
  · unfold toIlcd
    rw [if_neg, hconv]
    · rfl
    · rintro ⟨h1, h2⟩
      rw [he] at h1
      rcases hs with h | h
      · rw [h] at h2; cases h2
      · exact h (Option.some.inj h1)
  · rw [he, kind_some e hene]
    refine Eq.trans h ?_
    simp [typeTexts, keep, hb]

/-- The version is kept exactly if the major release is not 0 and minor release and major revision are equal. -/
theorem version_kept_iff (v : Version) (k : Nat) :
    versionBack v k = v ↔ v.majorRelease ≠ 0 ∧ v.minorRelease = v.majorRevision := by
  obtain ⟨a, b, c, d⟩ := v
  unfold versionBack exchanged
  by_cases h : a = 0
  · simp only [h, if_true, Version.mk.injEq]
    simp
  · simp only [h, if_false, Version.mk.injEq, ne_eq, not_false_eq_true, true_and, and_true]
    constructor
    · rintro ⟨h1, -⟩; exact h1.symm
    · rintro rfl; exact ⟨rfl, rfl⟩

/-- Reviews without a version are given different ones within a data set: 1.0.1.0, 1.0.2.0 and so on. -/
theorem versions_given (env : Refs.Env) (limit : Bool) (uuidOf : Str → Str) (date : Str → Option Str) :
    ∀ (l : List IlcdReview) (s s' : State) (es : List EcsFilled),
    (∀ r ∈ l, r.reviewers ≠ [] ∧ ∀ c, comments date r.details ⟨none, c!"1900-01-01", typeTexts r.type⟩ = .ok c → c.version = none) →
    toEcsAll env limit uuidOf date l s = .ok (es, s') →
    es.map (·.version) = (List.range' s.counter l.length).map (fun k => ⟨1, 0, k, 0⟩) ∧
      s'.counter = s.counter + l.length
  | [], s, s', es, _, h => by
    simp only [toEcsAll, Except.ok.injEq, Prod.mk.injEq] at h
    obtain ⟨rfl, rfl⟩ := h
    simp
  | r :: l, s, s', es, hall, h => by
    obtain ⟨hr, hv⟩ := hall r List.mem_cons_self
    unfold toEcsAll at h
    cases h1 : toEcs env limit uuidOf date r s with
    | error e => rw [h1] at h; cases h
    | ok p =>
      obtain ⟨e, s1⟩ := p
      rw [h1, Refs.bind_ok'] at h
      simp only at h
      cases h2 : toEcsAll env limit uuidOf date l s1 with
      | error e => rw [h2] at h; cases h
      | ok p =>
        obtain ⟨es', s2⟩ := p
        rw [h2, Refs.bind_ok'] at h
        simp only [Except.ok.injEq, Prod.mk.injEq] at h
        obtain ⟨rfl, rfl⟩ := h
        obtain ⟨ih1, ih2⟩ := versions_given env limit uuidOf date l s1 s2 es'
          (fun r hr => hall r (List.mem_cons_of_mem _ hr)) h2
        unfold toEcs at h1
        cases hc : comments date r.details ⟨none, c!"1900-01-01", typeTexts r.type⟩ with
        | error e => rw [hc] at h1; cases h1
        | ok c =>
          have hvn := hv c hc
          rw [hc, Refs.bind_ok'] at h1
          cases hrev : reviewers env r.reviewers ([], ⟨none, none, none⟩, s.master) with
          | error e => rw [hrev] at h1; cases h1
          | ok q =>
            obtain ⟨names, hd, m⟩ := q
            rw [hrev, Refs.bind_ok'] at h1
            simp only [hvn, defaultVersion] at h1
            cases hjj : joinReviewers limit uuidOf names hd with
            | error e => rw [hjj] at h1; cases h1
            | ok hd' =>
              rw [hjj, Refs.bind_ok', if_neg hr] at h1
              simp only [Except.ok.injEq, Prod.mk.injEq] at h1
              obtain ⟨rfl, rfl⟩ := h1
              simp only at ih1 ih2
              refine ⟨?_, ?_⟩
              · simp only [Option.toList, List.cons_append, List.nil_append, List.map_cons, ih1, List.length_cons,
                  List.range'_succ]
              · rw [ih2, List.length_cons]; omega

/-! ### Examples -/

/-- Two contacts with files, the second without an address. -/
def people : Refs.Env :=
  { Refs.archive with
    contacts := some [(Refs.fileName Refs.u1, true), (Refs.fileName Refs.u2, true)]
    contactFile := fun n => if n = Refs.fileName Refs.u1 then ⟨some c!"Company", some c!"a@b.org"⟩ else ⟨some c!"Other", none⟩ }

theorem people_good (n : Str) (hn : n ≠ []) : Good people (Refs.written c!"contacts" Refs.u1 n) n Refs.u1 :=
  ⟨⟨by simp [Refs.written, Refs.u1], rfl, hn⟩, rfl, .inr ⟨_, Refs.fileName Refs.u1, c!"Company", rfl, by
    rw [people]
    exact Refs.own_files_found [Refs.u1, Refs.u2] (by decide +kernel) _ (by simp) Refs.u1 (by simp) _ _,
    by simp [Refs.Spec.IsFile], by decide +kernel⟩⟩

/-- A review with the version 1.2.3.0 comes back with 1.3.2.0. -/
example : ((toEcs people true id some ⟨some c!"Independent internal review",
    [text ⟨c!"2010-05-31", ⟨1, 2, 3, 0⟩, some c!"x@y.org", c!"X", Refs.u1, [c!"Fine."]⟩],
    [Refs.written c!"contacts" Refs.u1 c!"X"]⟩ ⟨1, []⟩).toOption.map (·.1)) =
    some (some ⟨⟨1, 3, 2, 0⟩, c!"2010-05-31", [c!"Review type: Independent internal review", c!"Fine."],
      ⟨some Refs.u1, some c!"X", some c!"a@b.org"⟩⟩) := by
  decide +kernel

/-- Two reviewers: the identifier is that of neither. -/
example : ∃ e s', toEcs people true (fun s => c!"made from " ++ s) some ⟨none, [],
    [Refs.written c!"contacts" Refs.u1 c!"X", Refs.written c!"contacts" Refs.u1 c!"Y"]⟩ ⟨1, []⟩ = .ok (some e, s') ∧
    e.reviewer.id = some c!"made from X/Y" ∧ ∀ w, w ∈ s'.master.map (·.id) → w = Refs.u1 := by
  obtain ⟨e, s', h1, h2, h3, h4⟩ := several_reviewers people true (fun s => c!"made from " ++ s) some
    [(Refs.written c!"contacts" Refs.u1 c!"X", c!"X", Refs.u1), (Refs.written c!"contacts" Refs.u1 c!"Y", c!"Y", Refs.u1)]
    (by
      intro x hx
      simp only [List.mem_cons, List.not_mem_nil, or_false] at hx
      rcases hx with rfl | rfl
      · exact people_good _ (by simp)
      · exact people_good _ (by simp)) (by simp) none [] ⟨none, c!"1900-01-01", []⟩ rfl (by decide) ⟨1, []⟩
  exact ⟨e, s', h1, h3, fun w hw => by simpa using h4 w hw⟩

/-- Two reviews without a version. -/
example : ((toEcsAll people true id some [⟨none, [c!"Fine."], [Refs.written c!"contacts" Refs.u1 c!"X"]⟩,
    ⟨none, [], [Refs.written c!"contacts" Refs.u1 c!"Y"]⟩] ⟨1, []⟩).toOption.map fun p => p.1.map (·.version)) =
    some [⟨1, 0, 1, 0⟩, ⟨1, 0, 2, 0⟩] := by
  decide +kernel

end Verif.Reviews
