/-
Replacing marked pieces in a text: lemmas shared by the corrections of formulas.
-/
import Verif.Lemmas.IlcdVars
import Verif.Spec.EcsVars

namespace Verif.Segs
open EcsVars.Spec (rend)
open IlcdVars (replaceAll replaceAux replaceAux_skip replaceAux_hit replaceAux_miss replaceAux_none)

/-- No proper beginning of the text is one of its ends. -/
def Borderless (w : Str) : Prop := ∀ k, 0 < k → k < w.length → w.drop k ≠ w.take (w.length - k)

instance (w : Str) : Decidable (Borderless w) :=
  decidable_of_iff (∀ k : Fin w.length, 0 < k.1 → w.drop k ≠ w.take (w.length - k))
    ⟨fun h k h0 h1 => h ⟨k, h1⟩ h0, fun h k h0 => h k.1 h0 k.2⟩

/-- The text `w` begins nowhere in `b`, read with what follows. -/
def NoStart (w b rest : Str) : Prop := ∀ i < b.length, ¬ w <+: (b ++ rest).drop i

theorem noStart_nil {w rest : Str} : NoStart w [] rest := by
  intro i hi; simp at hi

theorem NoStart.tail {w b rest : Str} {c : Char} (h : NoStart w (c :: b) rest) : NoStart w b rest := by
  intro i hi
  have := h (i + 1) (by simpa using hi)
  simpa using this

theorem NoStart.append {w a b rest : Str} (h1 : NoStart w a (b ++ rest)) (h2 : NoStart w b rest) :
    NoStart w (a ++ b) rest := by
  intro i hi
  by_cases h : i < a.length
  · have := h1 i h
    rwa [List.append_assoc]
  · rw [List.append_assoc, List.drop_append_of_le_length' h]
    apply h2
    simp at hi; omega
where
  List.drop_append_of_le_length' {a : Str} {i : Nat} {b : Str} (h : ¬ i < a.length) :
      (a ++ b).drop i = b.drop (i - a.length) := by
    rw [List.drop_append]
    simp [List.drop_eq_nil_of_le (Nat.le_of_not_lt h)]

/-- A text that does not contain `w`, at the end. -/
theorem noStart_end {w b : Str} (h : ¬ w <:+: b) : NoStart w b [] := by
  intro i _ hp
  rw [List.append_nil] at hp
  exact h (hp.isInfix.trans (List.drop_suffix i b).isInfix)

/-- A text that does not contain `w`, in front of `w`. -/
theorem noStart_before {w b rest : Str} (hb : Borderless w) (h : ¬ w <:+: b) : NoStart w b (w ++ rest) := by
  intro i hi hp
  rw [List.drop_append_of_le_length (Nat.le_of_lt hi)] at hp
  by_cases hle : w.length ≤ b.length - i
  · apply h
    have : w <+: b.drop i := by
      obtain ⟨r, hr⟩ := hp
      have h2 := congrArg (List.take w.length) hr
      rw [List.take_left, List.take_append_of_le_length (by simp; omega)] at h2
      exact h2 ▸ List.take_prefix _ _
    exact this.isInfix.trans (List.drop_suffix i b).isInfix
  · obtain ⟨r, hr⟩ := hp
    have hk : (b.drop i).length = b.length - i := by simp
    apply hb (b.length - i) (by omega) (by omega)
    have h2 := congrArg (List.drop (b.length - i)) hr
    rw [List.drop_append_of_le_length (by omega), ← hk, List.drop_left, hk] at h2
    have h3 := congrArg (List.take (w.length - (b.length - i))) h2
    rw [List.take_append_of_le_length (by simp), List.take_of_length_le (by simp),
      List.take_append_of_le_length (by omega)] at h3
    exact h3

/-- A text that does not contain `w`, in front of a character that is not in `w`. -/
theorem noStart_sep {w b rest : Str} {c : Char} (hc : c ∉ w) (hw : w ≠ []) (h : ¬ w <:+: b) :
    NoStart w (b ++ [c]) rest := by
  intro i hi hp
  by_cases hle : w.length ≤ b.length - i
  · apply h
    have : w <+: b.drop i := by
      obtain ⟨r, hr⟩ := hp
      have hib : i ≤ b.length := by
        have : 0 < w.length := List.length_pos_of_ne_nil hw
        omega
      rw [List.append_assoc, List.drop_append_of_le_length hib] at hr
      have h2 := congrArg (List.take w.length) hr
      rw [List.take_left, List.take_append_of_le_length (by simp; omega)] at h2
      exact h2 ▸ List.take_prefix _ _
    exact this.isInfix.trans (List.drop_suffix i b).isInfix
  · apply hc
    obtain ⟨r, hr⟩ := hp
    have hib : i ≤ b.length := by simp at hi; omega
    rw [List.append_assoc, List.drop_append_of_le_length hib] at hr
    have h2 : (w ++ r)[b.length - i]? = (b.drop i ++ ([c] ++ rest))[b.length - i]? := by rw [hr]
    rw [List.getElem?_append_left (by omega), List.getElem?_append_right (by simp)] at h2
    simp at h2
    exact List.mem_of_getElem? h2

/-- Without the first character of `w` nothing begins. -/
theorem noStart_char {c : Char} {w b rest : Str} (h : c ∉ b) : NoStart (c :: w) b rest := by
  intro i hi hp
  apply h
  obtain ⟨r, hr⟩ := hp
  have h2 := congrArg (fun l => l[0]?) hr
  simp only [List.cons_append, List.getElem?_cons_zero, List.getElem?_drop, Nat.add_zero] at h2
  rw [List.getElem?_append_left hi] at h2
  exact List.mem_of_getElem? h2.symm

/-- Replacement passes over a text in which nothing begins. -/
theorem replaceAux_pass {w old new : Str} (hw : w <+: old) : ∀ {b rest : Str}, NoStart w b rest →
    replaceAux old new 0 (b ++ rest) = b ++ replaceAux old new 0 rest
  | [], _, _ => rfl
  | c :: b, rest, h => by
    rw [List.cons_append, replaceAux_miss, replaceAux_pass hw h.tail]
    · rfl
    · rintro ⟨r, hr⟩
      exact h 0 (by simp) (hw.trans ⟨r, by simpa using hr.symm⟩)

/-- How the pieces are written when those in `done` have been replaced. -/
def mixed (ref val : Str → Str) (done : List Str) (e : Str) : Str := if e ∈ done then val e else ref e

theorem infix_right {a b w : Str} (h : ¬ w <:+: a ++ b) : ¬ w <:+: b :=
  fun h' => h (h'.trans (List.suffix_append a b).isInfix)

theorem infix_left {a b w : Str} (h : ¬ w <:+: a ++ b) : ¬ w <:+: a :=
  fun h' => h (h'.trans (List.prefix_append a b).isInfix)

/-- Replacing one kind of piece. -/
theorem replace_rend {w : Str} {ref val : Str → Str} {e : Str} {done : List Str} (hwb : Borderless w)
    (hne : ref e ≠ []) (hwr : ∀ e, w <+: ref e) {last : Str} : ∀ {l : List (Str × Str)} {acc : Str},
    (∀ p ∈ l, p.2 ≠ e → ∀ r, ¬ ref e <+: ref p.2 ++ r) →
    (∀ p ∈ l, ∀ r, NoStart w (ref p.2).tail r) →
    ¬ w <:+: acc ++ rend val l last →
    replaceAux (ref e) (val e) 0 (acc ++ rend (mixed ref val done) l last) =
      acc ++ rend (mixed ref val (e :: done)) l last
  | [], acc, _, _, h => by
    simp only [rend] at h ⊢
    apply replaceAux_none
    rintro ⟨a, b, hab⟩
    exact h ((hwr e).isInfix.trans ⟨a, b, hab.symm⟩)
  | (t, e') :: l, acc, h1, h2, h => by
    simp only [rend] at h ⊢
    have ih := @replace_rend w ref val e done hwb hne hwr last l
    have h1' := fun p hp => h1 p (List.mem_cons_of_mem _ hp)
    have h2' := fun p hp => h2 p (List.mem_cons_of_mem _ hp)
    by_cases hd : e' ∈ done
    · have hm : mixed ref val done e' = val e' := by simp [mixed, hd]
      have hm' : mixed ref val (e :: done) e' = val e' := by simp [mixed, hd]
      rw [hm, hm']
      have := @ih (acc ++ t ++ val e') h1' h2' (by simpa [List.append_assoc] using h)
      simpa [List.append_assoc] using this
    · have hm : mixed ref val done e' = ref e' := by simp [mixed, hd]
      rw [hm]
      have hblock : ¬ w <:+: acc ++ t := by
        intro hc
        exact h (hc.trans ⟨[], val e' ++ rend val l last, by simp [List.append_assoc]⟩)
      have hrest : ¬ w <:+: [] ++ rend val l last := by
        intro hc
        exact h (hc.trans ⟨acc ++ (t ++ val e'), [], by simp [List.append_assoc]⟩)
      have hr : ∀ r, NoStart w (acc ++ t) (ref e' ++ r) := by
        intro r
        obtain ⟨q, hq⟩ := hwr e'
        rw [← hq, List.append_assoc]
        exact noStart_before hwb hblock
      rw [← List.append_assoc acc, replaceAux_pass (hwr e) (hr _), List.append_assoc]
      congr 2
      by_cases hee : e' = e
      · subst hee
        have hm' : mixed ref val (e' :: done) e' = val e' := by simp [mixed]
        rw [hm', replaceAux_hit hne]
        congr 1
        exact @ih [] h1' h2' hrest
      · have hm' : mixed ref val (e :: done) e' = ref e' := by simp [mixed, hd, hee]
        rw [hm']
        have hx := h1 (t, e') (by simp) hee
        have hy := h2 (t, e') (by simp)
        simp only at hx hy
        cases hre : ref e' with
        | nil =>
          exfalso
          have hw0 : w = [] := List.prefix_nil.1 (hre ▸ hwr e')
          exact h (hw0 ▸ List.nil_infix)
        | cons c s =>
          rw [hre] at hx hy
          rw [List.tail_cons] at hy
          rw [List.cons_append, replaceAux_miss, replaceAux_pass (hwr e) (hy _)]
          · rw [List.cons_append]
            congr 2
            exact @ih [] h1' h2' hrest
          · rintro ⟨r, hr⟩
            exact hx _ ⟨r, by rw [← hr]; rfl⟩

end Verif.Segs
