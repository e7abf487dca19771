import Verif.Model.MapFile
import Verif.Spec.MapFile
import Verif.Lemmas.Assoc
import Mathlib.Data.List.Basic

namespace Verif.MapFile

variable {κ α β : Type} [DecidableEq κ]

/-- Entries set one after the other: the last one with a key counts. -/
theorem fold_miss (f : β → κ) (g : β → α) (k : κ) (l : List β) (d : List (κ × α)) (h : ∀ q ∈ l, f q ≠ k) :
    aget k (l.foldl (fun d p => aset (f p) (g p) d) d) = aget k d := by
  induction l generalizing d with
  | nil => rfl
  | cons p l ih =>
    rw [List.foldl_cons, ih _ (fun q hq => h q (List.mem_cons_of_mem _ hq)), aget_aset]
    rw [if_neg (fun e => h p (by simp) e.symm)]

theorem fold_last (f : β → κ) (g : β → α) (k : κ) (pre post : List β) (r : β) (d : List (κ × α)) (hr : f r = k)
    (h : ∀ q ∈ post, f q ≠ k) :
    aget k ((pre ++ r :: post).foldl (fun d p => aset (f p) (g p) d) d) = some (g r) := by
  rw [List.foldl_append, List.foldl_cons, fold_miss f g k post _ h, aget_aset, if_pos hr.symm]

/-- An element with a property has a last place. -/
theorem last_place (P : β → Prop) [DecidablePred P] (l : List β) (h : ∃ r ∈ l, P r) :
    ∃ pre r post, l = pre ++ r :: post ∧ P r ∧ ∀ q ∈ post, ¬ P q := by
  induction l with
  | nil => obtain ⟨r, hr, _⟩ := h; cases hr
  | cons a l ih =>
    by_cases hl : ∃ r ∈ l, P r
    · obtain ⟨pre, r, post, e, hr, hp⟩ := ih hl
      exact ⟨a :: pre, r, post, by rw [e]; rfl, hr, hp⟩
    · obtain ⟨r, hr, hP⟩ := h
      rcases List.mem_cons.mp hr with e | hm
      · subst e
        exact ⟨[], r, l, rfl, hP, fun q hq hq' => hl ⟨q, hq, hq'⟩⟩
      · exact absurd ⟨r, hm, hP⟩ hl

/-- The cell of a row at a place. -/
def cellAt (r : List Str) (j : Nat) : Cell :=
  match r[j]? with
  | some s => .text s
  | none => .missing

theorem getElem?_split {β : Type} {l : List β} {j : Nat} {a : β} (h : l[j]? = some a) :
    l = l.take j ++ a :: l.drop (j + 1) := by
  obtain ⟨hj, e⟩ := List.getElem?_eq_some_iff.mp h
  rw [← e, List.getElem_cons_drop hj, List.take_append_drop]

theorem notMem_of_nodup {l : List Str} (hn : l.Nodup) {j : Nat} {a : Str} (h : l[j]? = some a) :
    (∀ q ∈ l.drop (j + 1), q ≠ a) := by
  have e := getElem?_split h
  rw [e] at hn
  have := (List.nodup_append.mp hn).2.1
  intro q hq he
  subst he
  exact (List.nodup_cons.mp this).1 hq

theorem drop_zip {β γ : Type} (l : List β) (m : List γ) (n : Nat) :
    (l.zip m).drop n = (l.drop n).zip (m.drop n) := by
  induction n generalizing l m with
  | zero => rfl
  | succ n ih =>
    cases l with
    | nil => simp
    | cons a l =>
      cases m with
      | nil => simp
      | cons b m => simpa using ih l m

theorem rowDict_get {header : List Str} (hn : header.Nodup) (cells : List Str) {j : Nat} {col : Str}
    (h : header[j]? = some col) : aget (some col) (rowDict header cells) = some (cellAt cells j) := by
  have hj : j < header.length := (List.getElem?_eq_some_iff.mp h).1
  have zipHit : ∀ s, cells[j]? = some s →
      aget (some col) ((header.zip cells).foldl (fun d p => aset (some p.1) (Cell.text p.2) d) [])
        = some (.text s) := by
    intro s hs
    have hz : (header.zip cells)[j]? = some (col, s) := by
      rw [List.getElem?_zip_eq_some]; exact ⟨h, hs⟩
    rw [getElem?_split hz]
    refine fold_last (fun p : Str × Str => some p.1) (fun p => Cell.text p.2) (some col) _ _ (col, s) [] rfl ?_
    intro q hq he
    have hq' : q ∈ (header.drop (j + 1)).zip (cells.drop (j + 1)) := by
      rw [← drop_zip]; exact hq
    have := List.of_mem_zip (a := q.1) (b := q.2) hq'
    exact notMem_of_nodup hn h q.1 this.1 (Option.some.inj he)
  unfold rowDict fill
  split
  · rename_i hl
    have hc : j < cells.length := by omega
    rw [aget_aset, if_neg (by simp), zipHit cells[j] (List.getElem?_eq_getElem hc)]
    simp [cellAt, List.getElem?_eq_getElem hc]
  · rename_i hl
    by_cases hc : j < cells.length
    · rw [fold_miss (fun k : Str => some k) (fun _ => Cell.missing) (some col),
        zipHit cells[j] (List.getElem?_eq_getElem hc)]
      · simp [cellAt, List.getElem?_eq_getElem hc]
      · intro q hq he
        have he : q = col := Option.some.inj he
        subst he
        have hsub : q ∈ header.drop (j + 1) := by
          have : header.drop cells.length = (header.drop (j + 1)).drop (cells.length - (j + 1)) := by
            rw [List.drop_drop]; congr 1; omega
          rw [this] at hq
          exact List.mem_of_mem_drop hq
        exact notMem_of_nodup hn h q hsub rfl
    · have hd : (header.drop cells.length)[j - cells.length]? = some col := by
        rw [List.getElem?_drop]; rw [← h]; congr 1; omega
      rw [getElem?_split hd]
      rw [fold_last (fun k : Str => some k) (fun _ => Cell.missing) (some col) _ _ col _ rfl]
      · have : cells[j]? = none := List.getElem?_eq_none (by omega)
        simp [cellAt, this]
      · intro q hq he
        have hnd : (header.drop cells.length).Nodup := hn.sublist (List.drop_sublist _ _)
        exact notMem_of_nodup hnd hd q hq (Option.some.inj he)

theorem aget_adel (k k' : κ) (d : List (κ × α)) (h : k' ≠ k) : aget k' (adel k d) = aget k' d := by
  induction d with
  | nil => rfl
  | cons p d ih =>
    obtain ⟨a, v⟩ := p
    unfold adel at ih ⊢
    by_cases ha : a = k
    · simp only [List.filter_cons, ha, decide_true, Bool.not_true, Bool.false_eq_true, if_false]
      rw [ih, aget, if_neg (fun e => h e.symm)]
    · simp only [List.filter_cons, ha, decide_false, Bool.not_false, if_true, aget]
      rw [ih]

theorem aget_adel_self (k : κ) (d : List (κ × α)) : aget k (adel k d) = none := by
  rw [aget_none]
  intro h
  obtain ⟨p, hp, e⟩ := List.mem_map.mp h
  simp [adel, e] at hp

theorem rowDict_get_none {header : List Str} (cells : List Str) {col : Str}
    (h : col ∉ header) : aget (some col) (rowDict header cells) = none := by
  have base : aget (some col) ((header.zip cells).foldl (fun d p => aset (some p.1) (Cell.text p.2) d) [])
      = none := by
    rw [fold_miss (fun p : Str × Str => some p.1) (fun p => Cell.text p.2) (some col)]
    · rfl
    · intro q hq he
      have := List.of_mem_zip (a := q.1) (b := q.2) hq
      exact h (Option.some.inj he ▸ this.1)
  unfold rowDict fill
  split
  · rw [aget_aset, if_neg (by simp), base]
  · rw [fold_miss (fun k : Str => some k) (fun _ => Cell.missing) (some col), base]
    intro q hq he
    exact h (Option.some.inj he ▸ List.mem_of_mem_drop hq)

theorem addRow_eq {header : List Str} (hn : header.Nodup) {i : Nat} {id : Str} (h : header[i]? = some id)
    (d : Table) (r : List Str) :
    addRow id d (rowDict header r) = .ok (aset r[i]? (adel (some id) (rowDict header r)) d) := by
  unfold addRow
  rw [rowDict_get hn r h]
  unfold cellAt
  cases r[i]? <;> rfl

theorem foldlM_eq {header : List Str} (hn : header.Nodup) {i : Nat} {id : Str} (h : header[i]? = some id)
    (l : List (List Str)) (d : Table) :
    (l.map (rowDict header)).foldlM (addRow id) d =
      .ok (l.foldl (fun d r => aset r[i]? (adel (some id) (rowDict header r)) d) d) := by
  induction l generalizing d with
  | nil => rfl
  | cons r l ih =>
    rw [List.map_cons, List.foldlM_cons, addRow_eq hn h]
    exact ih _

theorem suffix_eq (name e : Str) (he : e ≠ []) (hd : '.' ∉ e) :
    suffix name = '.' :: e ↔ ∃ stem, stem ≠ [] ∧ name = stem ++ '.' :: e := by
  constructor
  · intro h
    unfold suffix at h
    simp only at h
    split at h
    · rename_i hc
      obtain ⟨hm, -, hs⟩ := hc
      have ht := (List.cons.inj h).2
      refine ⟨name.take (name.length - (name.reverse.takeWhile (· ≠ '.')).reverse.length - 1), hs, ?_⟩
      have hm' : '.' ∈ name.reverse := List.mem_reverse.mpr hm
      have hsplit := List.takeWhile_append_dropWhile (p := fun x : Char => decide (x ≠ '.')) (l := name.reverse)
      have hdw : name.reverse.dropWhile (fun x : Char => decide (x ≠ '.')) ≠ [] := by
        intro hnil
        rw [hnil, List.append_nil] at hsplit
        rw [← hsplit] at hm'
        have := List.all_takeWhile (p := fun x : Char => decide (x ≠ '.')) (l := name.reverse)
        have := List.all_eq_true.mp this _ hm'
        simp at this
      obtain ⟨c, tl, hctl⟩ := List.exists_cons_of_ne_nil hdw
      have hc : c = '.' := by
        have := List.head_dropWhile_not (p := fun x : Char => decide (x ≠ '.')) hdw
        simp only [hctl, List.head_cons] at this
        simpa using this
      subst hc
      rw [hctl] at hsplit
      have hname : name = tl.reverse ++ '.' :: e := by
        rw [← ht, ← List.reverse_reverse name]
        conv_lhs => rw [← hsplit]
        simp
      have hlen : name.length - (name.reverse.takeWhile (fun x : Char => decide (x ≠ '.'))).reverse.length - 1
          = tl.reverse.length := by
        rw [ht, hname]; simp; omega
      rw [hlen]
      conv_rhs => rw [hname]
      rw [List.take_left']
      · exact hname
      · rfl
    · exact absurd h (by simp)
  · rintro ⟨stem, hs, rfl⟩
    have htail : ((stem ++ '.' :: e).reverse.takeWhile (fun x : Char => decide (x ≠ '.'))).reverse = e := by
      have : (stem ++ '.' :: e).reverse = e.reverse ++ '.' :: stem.reverse := by simp
      rw [this, List.takeWhile_append_of_pos]
      · simp
      · intro a ha
        have : a ∈ e := List.mem_reverse.mp ha
        simp only [decide_eq_true_eq]
        rintro rfl
        exact hd this
    unfold suffix
    simp only [htail]
    have hlen : (stem ++ '.' :: e).length - e.length - 1 = stem.length := by simp; omega
    rw [hlen, List.take_left' rfl]
    rw [if_pos ⟨by simp, he, hs⟩]

end Verif.MapFile
