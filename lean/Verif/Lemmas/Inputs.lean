/-
Lemmas for the files a conversion starts from.
-/
import Verif.Model.Inputs
import Verif.Spec.Inputs
import Verif.Lemmas.IlcdVars
import Mathlib.Data.List.Nodup

namespace Verif.Inputs

open Spec

theorem endsWith_iff {x s : Str} : endsWith x s = true ↔ ∃ r, s = r ++ x := by
  unfold endsWith
  rw [List.isSuffixOf_iff_suffix]
  constructor
  · rintro ⟨r, h⟩; exact ⟨r, h.symm⟩
  · rintro ⟨r, h⟩; exact ⟨r, h.symm⟩

/-- A text in front of which `sub` is found first at the end of `a`. -/
theorem before_append {sub z : Str} : ∀ {a : Str},
    (∀ p q, a = p ++ q → q ≠ [] → ¬ ∃ t, q ++ sub ++ z = sub ++ t) → sub ≠ [] →
    before sub (a ++ sub ++ z) = a
  | [], _, hs => by
      cases sub with
      | nil => exact absurd rfl hs
      | cons c s =>
        have : startsWith (c :: s) (c :: s ++ z) = true := IlcdVars.startsWith_iff.mpr ⟨z, rfl⟩
        simp only [List.nil_append, List.cons_append, before] at this ⊢
        rw [if_pos this]
  | d :: a, h, hs => by
      have h0 := h [] (d :: a) rfl (by simp)
      have hn : ¬ startsWith sub (d :: (a ++ sub ++ z)) = true := by
        rw [IlcdVars.startsWith_iff]
        simpa using h0
      simp only [List.cons_append, before]
      rw [if_neg hn, before_append (fun p q e hq => h (d :: p) q (by rw [e]; rfl) hq) hs]

theorem slash_split {a b c d : Str} (hb : '/' ∉ b) (hd : '/' ∉ d)
    (h : a ++ '/' :: b = c ++ '/' :: d) : a = c ∧ b = d := by
  induction a generalizing c with
  | nil =>
    cases c with
    | nil => exact ⟨rfl, by simpa using h⟩
    | cons x c =>
      simp only [List.nil_append, List.cons_append, List.cons.injEq] at h
      exact absurd (h.2 ▸ (by simp : '/' ∈ c ++ '/' :: d)) hb
  | cons y a ih =>
    cases c with
    | nil =>
      simp only [List.nil_append, List.cons_append, List.cons.injEq] at h
      exact absurd (h.2.symm ▸ (by simp : '/' ∈ a ++ '/' :: b)) hd
    | cons x c =>
      simp only [List.cons_append, List.cons.injEq] at h
      obtain ⟨e1, e2⟩ := ih h.2
      exact ⟨by rw [h.1, e1], e2⟩

/-- The name of the folder found nowhere in the folder `r` is found right behind it. -/
theorem before_folder {r z : Str} (hr : IsFolder r) (hn : ¬ Occurs c!"processes/" r) :
    before c!"processes/" (r ++ c!"processes/" ++ z) = r := by
  refine before_append ?_ (by simp)
  rintro p q e hq ⟨t, ht⟩
  rcases hr with h0 | ⟨w, hw⟩
  · rw [h0] at e
    exact hq (List.append_eq_nil_iff.mp e.symm).2
  · -- `q` ends with a slash, so it has the whole name in it
    obtain ⟨v, hv⟩ : ∃ v, q = v ++ ['/'] := by
      rcases List.eq_nil_or_concat q with h | ⟨v, c, h⟩
      · exact absurd h hq
      · refine ⟨v, ?_⟩
        have : w ++ ['/'] = (p ++ v) ++ [c] := by rw [← hw, e, h]; simp
        obtain ⟨-, e3⟩ := List.append_inj' this rfl
        rw [h]; simpa using e3.symm
    have hl : (c!"processes/").length ≤ q.length := by
      by_contra hlt
      have hlt : q.length < 10 := by simpa using hlt
      have h1 : (q ++ c!"processes/" ++ z)[q.length - 1]? = some '/' := by
        rw [List.append_assoc, List.getElem?_append_left (by rw [hv]; simp)]
        rw [hv]; simp
      rw [ht, List.getElem?_append_left (by simp; omega)] at h1
      have h2 : q.length - 1 < 9 := by
        have : 0 < q.length := by rw [hv]; simp
        omega
      have : ∀ i < 9, (c!"processes/")[i]? ≠ some '/' := by decide
      exact this _ h2 h1
    rw [List.append_assoc] at ht
    have h3 : q = c!"processes/" ++ q.drop 10 := by
      have h4 := congrArg (List.take 10) ht
      rw [List.take_append_of_le_length (by simpa using hl)] at h4
      have h5 : List.take 10 (c!"processes/" ++ t) = c!"processes/" := by simp
      rw [h5] at h4
      conv => lhs; rw [← List.take_append_drop 10 q, h4]
    exact hn ⟨p, q.drop 10, by rw [e, List.append_assoc]; congr 1⟩

theorem isFolder_folder (root : Str) : ∃ r, IsFolder r ∧ folder root = r ++ c!"processes/" := by
  unfold folder
  split
  · next h =>
    refine ⟨root, ?_, rfl⟩
    rcases h with h | h
    · exact .inl h
    · exact .inr (endsWith_iff.mp h)
  · exact ⟨root ++ c!"/", .inr ⟨root, rfl⟩, by simp⟩

theorem folder_of_isFolder {r : Str} (h : IsFolder r) : folder r = r ++ c!"processes/" := by
  unfold folder
  rw [if_pos]
  rcases h with h | h
  · exact .inl h
  · exact .inr (endsWith_iff.mpr h)

theorem inFolder_iff {d x : Str} :
    inFolder d c!".xml" x = true ↔ ∃ f, x = d ++ f ++ c!".xml" ∧ '/' ∉ f := by
  unfold inFolder
  simp only [Bool.and_eq_true, IlcdVars.startsWith_iff, endsWith_iff, Bool.not_eq_true',
    List.contains_eq_mem, decide_eq_false_iff_not]
  constructor
  · rintro ⟨⟨⟨r, rfl⟩, hs⟩, f, hf⟩
    simp only [List.drop_left] at hs hf
    refine ⟨f, by rw [hf, List.append_assoc], fun h => hs ?_⟩
    rw [hf]; simp [h]
  · rintro ⟨f, rfl, hf⟩
    refine ⟨⟨⟨f ++ c!".xml", by simp⟩, ?_⟩, f, by simp⟩
    simp [List.append_assoc, hf]

theorem mem_distinct {x : Str} {names : List Str} : x ∈ distinct names ↔ x ∈ names := by
  unfold distinct
  suffices h : ∀ (l acc : List Str), x ∈ l.foldl (fun l x => if x ∈ l then l else l ++ [x]) acc ↔
      x ∈ acc ∨ x ∈ l by simpa using h names []
  intro l
  induction l with
  | nil => simp
  | cons y l ih =>
    intro acc
    rw [List.foldl_cons, ih]
    split
    · next h =>
      constructor
      · rintro (h1 | h1) <;> simp [h1]
      · rintro (h1 | h1)
        · exact .inl h1
        · rcases List.mem_cons.mp h1 with e | e
          · exact .inl (e ▸ h)
          · exact .inr e
    · simp [or_assoc]

theorem nodup_distinct (names : List Str) : (distinct names).Nodup := by
  unfold distinct
  suffices h : ∀ (l acc : List Str), acc.Nodup →
      (l.foldl (fun l x => if x ∈ l then l else l ++ [x]) acc).Nodup from h names [] List.nodup_nil
  intro l
  induction l with
  | nil => simp
  | cons y l ih =>
    intro acc hacc
    rw [List.foldl_cons]
    apply ih
    split
    · exact hacc
    · next h => exact List.nodup_append.mpr ⟨hacc, by simp, by
        intro a ha b hb e
        exact h (List.mem_singleton.mp hb ▸ e ▸ ha)⟩

theorem mem_processes {root x : Str} {names : List Str} :
    x ∈ processes root names ↔ x ∈ names ∧ ∃ f, x = folder root ++ f ++ c!".xml" ∧ '/' ∉ f := by
  unfold processes
  rw [List.mem_filter, mem_distinct, inFolder_iff]

theorem yieldFiles_fst {α : Type} : ∀ l : List α, (Driver.yieldFiles l).map Prod.fst = l
  | [] => rfl
  | [_] => rfl
  | a :: b :: l => by
      simp only [Driver.yieldFiles, List.map_cons, yieldFiles_fst (b :: l)]

/-- Only the last of the files has the mark. -/
theorem yieldFiles_marks {α : Type} : ∀ (l : List α) (a : α),
    Driver.yieldFiles (l ++ [a]) = l.map (fun x => (x, false)) ++ [(a, true)]
  | [], _ => rfl
  | [_], _ => rfl
  | x :: y :: l, a => by
      have := yieldFiles_marks (y :: l) a
      simp only [List.cons_append, Driver.yieldFiles, List.map_cons] at this ⊢
      rw [this]

theorem pointsTo_iff {x : Str} : pointsTo x = true ↔ Below x ∧ ∃ y, x = y ++ c!".xml" := by
  unfold pointsTo
  rw [Bool.and_eq_true, Bool.or_eq_true, IlcdVars.startsWith_iff, IlcdVars.isInfix_iff, endsWith_iff]
  constructor
  · rintro ⟨⟨y, rfl⟩ | ⟨a, b, rfl⟩, h⟩
    · exact ⟨⟨[], y, .inl rfl, rfl⟩, h⟩
    · exact ⟨⟨a ++ ['/'], b, .inr ⟨a, rfl⟩, by simp⟩, h⟩
  · rintro ⟨⟨r, y, hr | ⟨q, hq⟩, hx⟩, h⟩
    · subst hr; exact ⟨.inl ⟨y, hx⟩, h⟩
    · subst hq; exact ⟨.inr ⟨q, y, by simp [hx]⟩, h⟩

theorem isProcess_points {x : Str} (h : IsProcess x) : pointsTo x = true := by
  obtain ⟨r, hr, f, hx, -⟩ := h
  exact pointsTo_iff.mpr ⟨⟨r, f ++ c!".xml", hr, by rw [hx]; simp⟩, r ++ c!"processes/" ++ f, hx⟩

theorem processAt_unique {r s x : Str} (h1 : ProcessAt r x) (h2 : ProcessAt s x) : r = s := by
  obtain ⟨-, f, hx, hf⟩ := h1
  obtain ⟨-, g, hy, hg⟩ := h2
  have h : (r ++ c!"processes") ++ '/' :: (f ++ c!".xml") = (s ++ c!"processes") ++ '/' :: (g ++ c!".xml") := by
    have := hx.symm.trans hy
    simpa using this
  have := (slash_split (by simp [hf]) (by simp [hg]) h).1
  exact List.append_cancel_right this

end Verif.Inputs
