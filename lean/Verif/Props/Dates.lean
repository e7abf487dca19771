/-
C196: the dates of the time period.
-/
import Verif.Model.Dates
import Verif.Spec.Dates
import Verif.Lemmas.EcsVars
import Verif.Props.Admin

namespace Verif.Dates
open Verif.Admin (Day)
open Verif.EcsVars (splitOn_none splitOn_cons)
open Spec

theorem digit_val : ∀ d : Fin 10, digitVal (Nat.digitChar d.val) = some d.val ∧ (Nat.digitChar d.val).isDigit = true := by
  decide

theorem dd_num {n lo hi : Nat} (h : n < 100) (hl : lo ≤ n) (hh : n ≤ hi) : num lo hi (dd n) = some n := by
  have key : ∀ n : Fin 100, (dd n.val).all Char.isDigit = true ∧ parseNat (dd n.val) = some n.val := by decide
  obtain ⟨h1, h2⟩ := key ⟨n, h⟩
  simp only at h1 h2
  unfold num
  rw [if_pos ⟨.inr rfl, h1⟩, h2]
  simp [Option.filter, hl, hh]

theorem dd_day {n : Nat} (h : 1 ≤ n) (hh : n ≤ 31) : dayNum (dd n) = some n := by
  have key : ∀ n : Fin 32, ∀ r, dd n.val ≠ ' ' :: r := by
    intro n r hc
    have key : ∀ n : Fin 32, (dd n.val).head? ≠ some ' ' := by decide
    apply key n
    rw [hc]
    rfl
  unfold dayNum
  split
  · rename_i r hr
    exact absurd hr (key ⟨n, by omega⟩ r)
  · exact dd_num (by omega) h hh

theorem parseDigits_step {c : Char} {d acc : Nat} {l : Str} (h : digitVal c = some d) :
    parseDigits acc (c :: l) = parseDigits (acc * 10 + d) l := by
  have hc : c ≠ '_' := by
    rintro rfl
    cases h
  rw [parseDigits.eq_def]
  split
  · rename_i he; cases he
  · rename_i he
    exact absurd (List.cons.inj he).1 hc
  · rename_i he
    obtain ⟨rfl, rfl⟩ := List.cons.inj he
    rw [h]

theorem dd_year {a b : Nat} (ha : a < 100) (hb : b < 100) : yearNum (dd a ++ dd b) = some (100 * a + b) := by
  have h1 := digit_val ⟨a / 10, by omega⟩
  have h2 := digit_val ⟨a % 10, by omega⟩
  have h3 := digit_val ⟨b / 10, by omega⟩
  have h4 := digit_val ⟨b % 10, by omega⟩
  simp only at h1 h2 h3 h4
  unfold yearNum
  rw [if_pos]
  · simp only [dd, List.cons_append, List.nil_append, parseNat, h1, parseDigits_step h2.1,
      parseDigits_step h3.1, parseDigits_step h4.1]
    simp only [parseDigits, Option.some.injEq]
    omega
  · refine ⟨rfl, ?_⟩
    simp [dd, h1, h2, h3, h4]

/-- The digits of a number are none of the separators. -/
theorem dd_notMem {n : Nat} (h : n < 100) {c : Char} (hc : c.isDigit = false) : c ∉ dd n := by
  have key : ∀ n : Fin 100, ∀ x ∈ dd n.val, x.isDigit = true := by decide
  intro hm
  have := key ⟨n, h⟩ c hm
  rw [hc] at this
  cases this

theorem date_bounds {d : Day} (h : IsDate d) : d.year / 100 < 100 ∧ d.year % 100 < 100 ∧ 1 ≤ d.month ∧ d.month ≤ 12 ∧
    1 ≤ d.day ∧ d.day ≤ 31 ∧ d.day ≤ monthDays d.year d.month := by
  obtain ⟨h1, h2, h3, h4⟩ := h
  refine ⟨by omega, by omega, ?_⟩
  simp only [List.mem_cons, List.not_mem_nil, or_false] at h4
  unfold monthDays leap
  rcases h4 with ⟨hm, hd⟩ | ⟨hm, hd⟩ | ⟨hm, hd⟩
  · rcases hm with hm | hm | hm | hm | hm | hm | hm <;> rw [hm] <;> simp <;> omega
  · rcases hm with hm | hm | hm | hm <;> rw [hm] <;> simp <;> omega
  · rw [hm]
    simp only [decide_eq_true_eq, if_true]
    rcases hd with hd | ⟨hd, h4, h100⟩
    · split <;> omega
    · rw [if_pos]
      · omega
      · refine ⟨by omega, ?_⟩
        by_cases hc : d.year % 100 = 0
        · right
          have := h100 (by omega)
          omega
        · left; exact hc

theorem dateText_split (d : Day) (h : IsDate d) :
    splitOn '-' (dateText d) = [dd (d.year / 100) ++ dd (d.year % 100), dd d.month, dd d.day] := by
  obtain ⟨b1, b2, b3, b4, b5, b6, -⟩ := date_bounds h
  have e : dateText d = (dd (d.year / 100) ++ dd (d.year % 100)) ++ '-' :: (dd d.month ++ '-' :: dd d.day) := by
    simp [dateText]
  rw [e, splitOn_cons, splitOn_cons, splitOn_none]
  · exact dd_notMem (by omega) (by decide)
  · exact dd_notMem (by omega) (by decide)
  · intro hm
    rcases List.mem_append.1 hm with hm | hm
    · exact dd_notMem b1 (by decide) hm
    · exact dd_notMem b2 (by decide) hm

theorem dateText_day (d : Day) (h : IsDate d) : readDay (dateText d) = some d := by
  obtain ⟨b1, b2, b3, b4, b5, b6, b7⟩ := date_bounds h
  unfold readDay
  rw [dateText_split d h]
  simp only [dd_year b1 b2, dd_num (n := d.month) (by omega) b3 b4, dd_day b5 b6]
  rw [show 100 * (d.year / 100) + d.year % 100 = d.year by omega, if_pos ⟨h.1, b7⟩]

/-- C196. Every date of the calendar written as the schema says, without a zone, is read. -/
theorem date_read (d : Day) (h : IsDate d) : getTimeObject (dateText d) = .ok d := by
  unfold getTimeObject
  rw [dateText_day d h]

example : IsDate ⟨2024, 2, 29⟩ ∧ dateText ⟨2024, 2, 29⟩ = c!"2024-02-29" := by
  refine ⟨⟨by decide, by decide, by decide, .inr (.inr ⟨rfl, .inr ⟨rfl, by decide, by decide⟩⟩)⟩, by decide⟩

theorem dateText_chars (d : Day) (h : IsDate d) : ∀ c ∈ dateText d, c.isDigit = true ∨ c = '-' := by
  obtain ⟨b1, b2, b3, b4, b5, b6, -⟩ := date_bounds h
  have key : ∀ n : Fin 100, ∀ x ∈ dd n.val, x.isDigit = true := by decide
  intro c hc
  simp only [dateText, List.mem_append, List.mem_singleton] at hc
  rcases hc with ((((hc | hc) | hc) | hc) | hc) | hc
  · exact .inl (key ⟨_, b1⟩ c hc)
  · exact .inl (key ⟨_, b2⟩ c hc)
  · exact .inr hc
  · exact .inl (key ⟨d.month, by omega⟩ c hc)
  · exact .inr hc
  · exact .inl (key ⟨d.day, by omega⟩ c hc)

/-! ### What is read -/

theorem split_three {sep : Char} {s a b c : Str} (h : splitOn sep s = [a, b, c]) : s = a ++ sep :: (b ++ sep :: c) := by
  have := join_splitOn sep s
  rw [h] at this
  rw [← this]
  simp [join]

theorem split_two {sep : Char} {s a b : Str} (h : splitOn sep s = [a, b]) : s = a ++ sep :: b := by
  have := join_splitOn sep s
  rw [h] at this
  rw [← this]
  simp [join]

theorem split_one {sep : Char} {s a : Str} (h : splitOn sep s = [a]) : s = a := by
  have := join_splitOn sep s
  rw [h] at this
  rw [← this]
  simp [join]

theorem num_some {lo hi n : Nat} {s : Str} (h : num lo hi s = some n) :
    (∀ c ∈ s, c.isDigit = true) ∧ lo ≤ n ∧ n ≤ hi := by
  unfold num at h
  split at h
  · rename_i hs
    obtain ⟨h1, h2⟩ := Option.filter_eq_some_iff.1 h
    exact ⟨List.all_eq_true.1 hs.2, by simpa using h2⟩
  · cases h

theorem dayNum_some {n : Nat} {s : Str} (h : dayNum s = some n) :
    (∀ c ∈ s, c.isDigit = true ∨ c = ' ') ∧ 1 ≤ n ∧ n ≤ 31 := by
  unfold dayNum at h
  split at h
  · split at h
    · obtain ⟨h1, h2, h3⟩ := num_some h
      refine ⟨?_, h2, by omega⟩
      intro c hc
      rcases List.mem_cons.1 hc with rfl | hc
      · exact .inr rfl
      · exact .inl (h1 c hc)
    · cases h
  · obtain ⟨h1, h2, h3⟩ := num_some h
    exact ⟨fun c hc => .inl (h1 c hc), h2, h3⟩

theorem readDay_some {s : Str} {d : Day} (h : readDay s = some d) : ∃ y m t, s = y ++ '-' :: (m ++ '-' :: t) ∧
    yearNum y = some d.year ∧ num 1 12 m = some d.month ∧ dayNum t = some d.day ∧ 1 ≤ d.year ∧
    d.day ≤ monthDays d.year d.month := by
  unfold readDay at h
  split at h
  · rename_i y m t hs
    split at h
    · rename_i a b c ha hb hc
      split at h
      · rename_i hv
        cases h
        exact ⟨y, m, t, split_three hs, ha, hb, hc, hv.1, hv.2⟩
      · cases h
    · cases h
  · cases h

theorem yearNum_some {s : Str} {n : Nat} (h : yearNum s = some n) :
    s.length = 4 ∧ (∀ c ∈ s, c.isDigit = true) ∧ parseNat s = some n := by
  unfold yearNum at h
  split at h
  · rename_i hs
    exact ⟨hs.1, List.all_eq_true.1 hs.2, h⟩
  · cases h

theorem readDay_chars {s : Str} {d : Day} (h : readDay s = some d) : ∀ c ∈ s, c.isDigit = true ∨ c = '-' ∨ c = ' ' := by
  obtain ⟨y, m, t, rfl, h1, h2, h3, -, -⟩ := readDay_some h
  intro c hc
  simp only [List.mem_append, List.mem_cons] at hc
  rcases hc with hc | rfl | hc | rfl | hc
  · exact .inl ((yearNum_some h1).2.1 c hc)
  · exact .inr (.inl rfl)
  · exact .inl ((num_some h2).1 c hc)
  · exact .inr (.inl rfl)
  · rcases (dayNum_some h3).1 c hc with h | h
    · exact .inl h
    · exact .inr (.inr h)

theorem year_bound {s : Str} {n : Nat} (hl : s.length = 4) (hd : ∀ c ∈ s, c.isDigit = true) (h : parseNat s = some n) :
    n ≤ 9999 := by
  have hv : ∀ c : Char, ∀ d, digitVal c = some d → d < 10 := by
    intro c d h
    unfold digitVal at h
    split at h
    · rename_i hc
      cases h
      have h9 : c.toNat ≤ '9'.toNat := hc.2
      have : '9'.toNat = 57 := rfl
      have : '0'.toNat = 48 := rfl
      omega
    · cases h
  have hs : ∀ c : Char, c.isDigit = true → ∃ d, digitVal c = some d := by
    intro c hc
    unfold digitVal
    simp only [Char.isDigit, Bool.and_eq_true, decide_eq_true_eq] at hc
    rw [if_pos ⟨hc.1, hc.2⟩]
    exact ⟨_, rfl⟩
  match s, hl with
  | [a, b, c, e], _ =>
    obtain ⟨p, hp⟩ := hs a (hd a (by simp))
    obtain ⟨q, hq⟩ := hs b (hd b (by simp))
    obtain ⟨r, hr⟩ := hs c (hd c (by simp))
    obtain ⟨t, ht⟩ := hs e (hd e (by simp))
    simp only [parseNat, hp, parseDigits_step hq, parseDigits_step hr, parseDigits_step ht] at h
    simp only [parseDigits, Option.some.injEq] at h
    have := hv _ _ hp
    have := hv _ _ hq
    have := hv _ _ hr
    have := hv _ _ ht
    omega

theorem readDay_date {s : Str} {d : Day} (h : readDay s = some d) : IsDate d := by
  obtain ⟨y, m, t, rfl, h1, h2, h3, h4, h5⟩ := readDay_some h
  obtain ⟨a, b, c⟩ := yearNum_some h1
  obtain ⟨-, m1, m2⟩ := num_some h2
  obtain ⟨-, d1, d2⟩ := dayNum_some h3
  refine ⟨h4, year_bound a b c, d1, ?_⟩
  simp only [List.mem_cons, List.not_mem_nil, or_false]
  unfold monthDays leap at h5
  by_cases hm : d.month = 2
  · rw [if_pos hm] at h5
    right; right
    refine ⟨hm, ?_⟩
    split at h5
    · rename_i hl
      simp only [decide_eq_true_eq] at hl
      by_cases hd : d.day ≤ 28
      · exact .inl hd
      · exact .inr ⟨by omega, by omega, by omega⟩
    · exact .inl h5
  · rw [if_neg hm] at h5
    by_cases h30 : d.month = 4 ∨ d.month = 6 ∨ d.month = 9 ∨ d.month = 11
    · rw [if_pos h30] at h5
      exact .inr (.inl ⟨h30, h5⟩)
    · exact .inl ⟨by omega, d2⟩

theorem readTime_some {s : Str} {d : Day} (h : readTime s = some d) : ∃ a c, upperTZ s = a ++ 'T' :: (c ++ ['Z']) ∧
    clockOrFraction c = true ∧ readDay a = some d := by
  unfold readTime at h
  split at h
  · rename_i a c hs
    split at h
    · rename_i c' hz
      split at h
      · rename_i hc
        refine ⟨a, c', ?_, hc, h⟩
        rw [split_two hs]
        unfold dropZ at hz
        split at hz
        · rename_i hl
          cases hz
          have hne : c ≠ [] := by rintro rfl; cases hl
          rw [List.getLast?_eq_some_getLast hne] at hl
          rw [← Option.some.inj hl, List.dropLast_concat_getLast]
        · cases hz
      · cases h
    · cases h
  · cases h

/-- C196. Whatever is read is a date of the calendar. -/
theorem read_is_date (s : Str) (d : Day) (h : getTimeObject s = .ok d) : IsDate d := by
  unfold getTimeObject at h
  split at h
  · rename_i d' hd
    cases h
    exact readDay_date hd
  · split at h
    · rename_i d' hd
      cases h
      obtain ⟨a, c, -, -, ha⟩ := readTime_some hd
      exact readDay_date ha
    · cases h

example : getTimeObject c!"2010-1- 5" = .ok ⟨2010, 1, 5⟩ := by decide

/-- C196. What is read is either a bare date, or has a T and ends with a Z. -/
theorem read_form (s : Str) (d : Day) (h : getTimeObject s = .ok d) :
    (∀ c ∈ s, c.isDigit = true ∨ c = '-' ∨ c = ' ') ∨
    (('T' ∈ s ∨ 't' ∈ s) ∧ (s.getLast? = some 'Z' ∨ s.getLast? = some 'z')) := by
  unfold getTimeObject at h
  split at h
  · rename_i d' hd
    exact .inl (readDay_chars hd)
  · split at h
    · rename_i d' hd
      right
      obtain ⟨a, c, hs, -, -⟩ := readTime_some hd
      constructor
      · have : 'T' ∈ upperTZ s := by rw [hs]; simp
        obtain ⟨x, hx, he⟩ := List.mem_map.1 this
        split at he
        · rename_i ht; exact .inr (ht ▸ hx)
        · split at he
          · cases he
          · exact .inl (he ▸ hx)
      · have : (upperTZ s).getLast? = some 'Z' := by
          rw [hs, show a ++ 'T' :: (c ++ ['Z']) = (a ++ 'T' :: c) ++ ['Z'] by simp, List.getLast?_concat]
        unfold upperTZ at this
        rw [List.getLast?_map] at this
        obtain ⟨x, hx, he⟩ := Option.map_eq_some_iff.1 this
        rw [hx]
        split at he
        · cases he
        · split at he
          · rename_i hz; exact .inr (by rw [hz])
          · exact .inl (by rw [he])
    · cases h

theorem error_of_not {s : Str} (h : ∀ d, getTimeObject s ≠ .ok d) : getTimeObject s = .error .valueError := by
  cases hg : getTimeObject s with
  | ok d => exact absurd hg (h d)
  | error e =>
    unfold getTimeObject at hg
    split at hg
    · cases hg
    · split at hg
      · cases hg
      · cases hg; rfl

/-- C196 fails for dates with a zone, which the schema allows: the conversion stops. -/
theorem zone_stops (d : Day) (hd : IsDate d) (z : Str)
    (hz : z = c!"Z" ∨ ∃ sign h m, (sign = '+' ∨ sign = '-') ∧ h < 24 ∧ m < 60 ∧ z = sign :: (dd h ++ ':' :: dd m)) :
    getTimeObject (dateText d ++ z) = .error .valueError := by
  apply error_of_not
  intro d' h'
  have hT : ∀ t : Char, (t = 'T' ∨ t = 't') → t ∉ dateText d ++ z := by
    intro t ht hm
    rcases List.mem_append.1 hm with hm | hm
    · rcases dateText_chars d hd t hm with h1 | h1
      · rcases ht with rfl | rfl <;> exact absurd h1 (by decide)
      · rcases ht with rfl | rfl <;> exact absurd h1 (by decide)
    · rcases hz with rfl | ⟨sign, h, m, hs, h1, h2, rfl⟩
      · rcases ht with rfl | rfl <;> exact absurd hm (by decide)
      · simp only [List.mem_cons, List.mem_append] at hm
        have hdig : t.isDigit = false := by rcases ht with rfl | rfl <;> decide
        rcases hm with hm | hm | hm | hm
        · rcases ht with rfl | rfl <;> rcases hs with rfl | rfl <;> exact absurd hm (by decide)
        · exact dd_notMem (by omega) hdig hm
        · rcases ht with rfl | rfl <;> exact absurd hm (by decide)
        · exact dd_notMem (by omega) hdig hm
  rcases read_form _ _ h' with hc | ⟨hc, -⟩
  · rcases hz with rfl | ⟨sign, h, m, hs, h1, h2, rfl⟩
    · have := hc 'Z' (by simp)
      revert this; decide
    · have := hc ':' (by simp)
      revert this; decide
  · rcases hc with hc | hc
    · exact hT _ (.inl rfl) hc
    · exact hT _ (.inr rfl) hc

example : IsDate ⟨2010, 1, 1⟩ ∧ dateText ⟨2010, 1, 1⟩ ++ c!"+01:00" = c!"2010-01-01+01:00" := by
  refine ⟨⟨by decide, by decide, by decide, .inl ⟨by decide, by decide⟩⟩, by decide⟩

theorem clockText_split (h m s : Nat) (hh : h < 100) (hm : m < 100) (hs : s < 100) :
    splitOn ':' (clockText h m s) = [dd h, dd m, dd s] := by
  have e : clockText h m s = dd h ++ ':' :: (dd m ++ ':' :: dd s) := by simp [clockText]
  rw [e, splitOn_cons (dd_notMem hh (by decide)), splitOn_cons (dd_notMem hm (by decide)),
    splitOn_none (dd_notMem hs (by decide))]

theorem clockText_chars (h m s : Nat) (hh : h < 100) (hm : m < 100) (hs : s < 100) :
    ∀ c ∈ clockText h m s, c.isDigit = true ∨ c = ':' := by
  have key : ∀ n : Fin 100, ∀ x ∈ dd n.val, x.isDigit = true := by decide
  intro c hc
  simp only [clockText, List.mem_append, List.mem_singleton] at hc
  rcases hc with (((hc | hc) | hc) | hc) | hc
  · exact .inl (key ⟨h, hh⟩ c hc)
  · exact .inr hc
  · exact .inl (key ⟨m, hm⟩ c hc)
  · exact .inr hc
  · exact .inl (key ⟨s, hs⟩ c hc)

/-- The part of a time behind the seconds: nothing, or a point and digits. -/
def FractionText (f : Str) : Prop := f = [] ∨ ∃ g, f = '.' :: g ∧ ∀ c ∈ g, c.isDigit = true

theorem upperTZ_self {s : Str} (h : ∀ c ∈ s, c ≠ 't' ∧ c ≠ 'z') : upperTZ s = s := by
  unfold upperTZ
  conv_rhs => rw [← List.map_id s]
  apply List.map_congr_left
  intro c hc
  simp [h c hc]

/-- Two digits are a number within a bound. -/
theorem dd_isSome {n : Nat} (h : n < 100) (hi : Nat) : (num 0 hi (dd n)).isSome = decide (n ≤ hi) := by
  have key : ∀ n : Fin 100, (dd n.val).all Char.isDigit = true ∧ parseNat (dd n.val) = some n.val := by decide
  obtain ⟨h1, h2⟩ := key ⟨n, h⟩
  simp only at h1 h2
  unfold num
  rw [if_pos ⟨.inr rfl, h1⟩, h2]
  by_cases hc : n ≤ hi <;> simp [Option.filter, hc]

/-- C196. A date with a time of two digits each and the letter Z is read exactly if the hour is below 24, the minute below
60, the second below 62, and the seconds have no or one to six decimals. -/
theorem time_of_day_iff (d : Day) (hd : IsDate d) (h m s : Nat) (hh : h < 100) (hm : m < 100) (hs : s < 100) (f : Str)
    (hf : FractionText f) :
    getTimeObject (dateText d ++ 'T' :: (clockText h m s ++ f ++ ['Z'])) =
      if (h < 24 ∧ m < 60 ∧ s < 62) ∧ f.length ≤ 7 ∧ f ≠ ['.'] then .ok d else .error .valueError := by
  have hcc := clockText_chars h m s (by omega) (by omega) (by omega)
  have hfc : ∀ c ∈ f, c.isDigit = true ∨ c = '.' := by
    intro c hc
    rcases hf with rfl | ⟨g, rfl, hg⟩
    · cases hc
    · rcases List.mem_cons.1 hc with rfl | hc
      · exact .inr rfl
      · exact .inl (hg c hc)
  have hno : readDay (dateText d ++ 'T' :: (clockText h m s ++ f ++ ['Z'])) = none := by
    cases he : readDay (dateText d ++ 'T' :: (clockText h m s ++ f ++ ['Z'])) with
    | none => rfl
    | some x =>
      exact absurd (readDay_chars he 'T' (by simp)) (by decide)
  have hup : upperTZ (dateText d ++ 'T' :: (clockText h m s ++ f ++ ['Z'])) =
      dateText d ++ 'T' :: (clockText h m s ++ f ++ ['Z']) := by
    apply upperTZ_self
    intro c hc
    have hdg : ∀ c : Char, c.isDigit = true → c ≠ 't' ∧ c ≠ 'z' := by
      intro c hc
      constructor <;> rintro rfl <;> exact absurd hc (by decide)
    simp only [List.mem_append, List.mem_cons, List.not_mem_nil, or_false] at hc
    rcases hc with hc | rfl | (hc | hc) | rfl
    · rcases dateText_chars d hd c hc with h1 | rfl
      · exact hdg c h1
      · decide
    · decide
    · rcases hcc c hc with h1 | rfl
      · exact hdg c h1
      · decide
    · rcases hfc c hc with h1 | rfl
      · exact hdg c h1
      · decide
    · decide
  have hsplit : splitOn 'T' (dateText d ++ 'T' :: (clockText h m s ++ f ++ ['Z'])) =
      [dateText d, clockText h m s ++ f ++ ['Z']] := by
    rw [splitOn_cons, splitOn_none]
    · intro hc
      simp only [List.mem_append, List.mem_singleton] at hc
      rcases hc with (hc | hc) | hc
      · rcases hcc _ hc with h1 | h1 <;> exact absurd h1 (by decide)
      · rcases hfc _ hc with h1 | h1 <;> exact absurd h1 (by decide)
      · exact absurd hc (by decide)
    · intro hc
      rcases dateText_chars d hd _ hc with h1 | h1 <;> exact absurd h1 (by decide)
  have hz : dropZ (clockText h m s ++ f ++ ['Z']) = some (clockText h m s ++ f) := by
    unfold dropZ
    rw [List.getLast?_concat, if_pos rfl, List.dropLast_concat]
  have hck : clock (clockText h m s) = decide (h < 24 ∧ m < 60 ∧ s < 62) := by
    unfold clock
    rw [clockText_split h m s hh hm hs]
    simp only [dd_isSome hh 23, dd_isSome hm 59, dd_isSome hs 61]
    simp [Nat.lt_succ_iff, Bool.and_assoc]
  have hpt : '.' ∉ clockText h m s := by
    intro hc
    rcases hcc _ hc with h1 | h1 <;> exact absurd h1 (by decide)
  have hcf : clockOrFraction (clockText h m s ++ f) =
      decide ((h < 24 ∧ m < 60 ∧ s < 62) ∧ f.length ≤ 7 ∧ f ≠ ['.']) := by
    unfold clockOrFraction
    rcases hf with rfl | ⟨g, rfl, hg⟩
    · rw [List.append_nil, splitOn_none hpt]
      simp [hck]
    · have hgp : '.' ∉ g := fun hc => absurd (hg _ hc) (by decide)
      rw [splitOn_cons hpt, splitOn_none hgp]
      simp only [hck, fraction, List.all_eq_true.2 hg]
      cases g with
      | nil => simp
      | cons x g => simp
  unfold getTimeObject
  rw [hno]
  unfold readTime
  simp only [hup, hsplit, hz, hcf, dateText_day d hd]
  by_cases hc : (h < 24 ∧ m < 60 ∧ s < 62) ∧ f.length ≤ 7 ∧ f ≠ ['.']
  · rw [if_pos hc, decide_eq_true hc]; rfl
  · rw [if_neg hc, decide_eq_false hc]; rfl

example : FractionText [] ∧ getTimeObject c!"2010-01-01T24:00:00Z" = .error .valueError ∧
    getTimeObject c!"2010-01-01T23:59:60Z" = .ok ⟨2010, 1, 1⟩ := ⟨.inl rfl, by decide, by decide⟩

/-- C196. A date with a time of UTC is read if the seconds have no or at most six decimals, and stops the conversion if
they have more. -/
theorem time_read_iff (d : Day) (hd : IsDate d) (h m s : Nat) (hh : h < 24) (hm : m < 60) (hs : s < 60) (f : Str)
    (hf : FractionText f) :
    getTimeObject (dateText d ++ 'T' :: (clockText h m s ++ f ++ ['Z'])) =
      if f.length ≤ 7 ∧ f ≠ ['.'] then .ok d else .error .valueError := by
  rw [time_of_day_iff d hd h m s (by omega) (by omega) (by omega) f hf]
  have : h < 24 ∧ m < 60 ∧ s < 62 := ⟨hh, hm, by omega⟩
  simp [this]

example : FractionText c!".123" ∧ getTimeObject c!"2010-01-01T12:30:00.123Z" = .ok ⟨2010, 1, 1⟩ :=
  ⟨.inr ⟨c!"123", rfl, by decide⟩, by decide⟩

/-- C196. The letters T and Z are read in either case. -/
theorem letters_either_case (a c : Str) :
    getTimeObject (a ++ 't' :: (c ++ ['z'])) = getTimeObject (a ++ 'T' :: (c ++ ['Z'])) := by
  have hno : ∀ x y : Char, (x = 't' ∨ x = 'T') → readDay (a ++ x :: (c ++ [y])) = none := by
    intro x y hx
    cases he : readDay (a ++ x :: (c ++ [y])) with
    | none => rfl
    | some d =>
      have := readDay_chars he x (by simp)
      rcases hx with rfl | rfl <;> exact absurd this (by decide)
  have hu : upperTZ (a ++ 't' :: (c ++ ['z'])) = upperTZ (a ++ 'T' :: (c ++ ['Z'])) := by simp [upperTZ]
  unfold getTimeObject readTime
  rw [hno _ _ (.inl rfl), hno _ _ (.inr rfl), hu]

/-- C196. The month and the day may be given with one digit, and a space may stand for the first digit of the day. -/
theorem short_date_read (d : Day) (hd : IsDate d) (hm : d.month < 10) (hdd : d.day < 10) (pre : Str)
    (hp : pre = [] ∨ pre = [' ']) :
    getTimeObject (dd (d.year / 100) ++ dd (d.year % 100) ++ '-' :: ([Nat.digitChar d.month] ++
      '-' :: (pre ++ [Nat.digitChar d.day]))) = .ok d := by
  obtain ⟨b1, b2, b3, b4, b5, b6, b7⟩ := date_bounds hd
  have k1 : ∀ n : Fin 10, '-' ∉ [Nat.digitChar n.val] ∧ '-' ∉ [' ', Nat.digitChar n.val] := by decide
  have k2 : ∀ n : Fin 10, 1 ≤ n.val → num 1 12 [Nat.digitChar n.val] = some n.val ∧
      dayNum [Nat.digitChar n.val] = some n.val ∧ dayNum [' ', Nat.digitChar n.val] = some n.val := by decide
  have hs : '-' ∉ pre ++ [Nat.digitChar d.day] := by
    rcases hp with rfl | rfl
    · exact (k1 ⟨d.day, hdd⟩).1
    · exact (k1 ⟨d.day, hdd⟩).2
  have hday : dayNum (pre ++ [Nat.digitChar d.day]) = some d.day := by
    rcases hp with rfl | rfl
    · exact (k2 ⟨d.day, hdd⟩ b5).2.1
    · exact (k2 ⟨d.day, hdd⟩ b5).2.2
  have hy : '-' ∉ dd (d.year / 100) ++ dd (d.year % 100) := by
    intro hc
    rcases List.mem_append.1 hc with hc | hc
    · exact dd_notMem b1 (by decide) hc
    · exact dd_notMem b2 (by decide) hc
  have hr : readDay (dd (d.year / 100) ++ dd (d.year % 100) ++ '-' :: ([Nat.digitChar d.month] ++
      '-' :: (pre ++ [Nat.digitChar d.day]))) = some d := by
    unfold readDay
    rw [splitOn_cons hy, splitOn_cons (k1 ⟨d.month, hm⟩).1, splitOn_none hs]
    simp only [dd_year b1 b2, (k2 ⟨d.month, hm⟩ b3).1, hday]
    have e : 100 * (d.year / 100) + d.year % 100 = d.year := Nat.div_add_mod _ _
    rw [e, if_pos ⟨hd.1, b7⟩]
  unfold getTimeObject
  rw [hr]

example : IsDate ⟨2010, 1, 5⟩ ∧ getTimeObject c!"2010-1- 5" = .ok ⟨2010, 1, 5⟩ := by
  refine ⟨⟨by decide, by decide, by decide, .inl ⟨by decide, by decide⟩⟩, by decide⟩

/-- C196. A date with a time and a zone other than Z, or none, stops the conversion. -/
theorem time_zone_stops (d : Day) (t : Str) (h : t.getLast? ≠ some 'Z' ∧ t.getLast? ≠ some 'z') (ht : t ≠ []) :
    getTimeObject (dateText d ++ 'T' :: t) = .error .valueError := by
  apply error_of_not
  intro d' h'
  rcases read_form _ _ h' with hc | ⟨-, hc⟩
  · have := hc 'T' (by simp)
    revert this; decide
  · have hl : (dateText d ++ 'T' :: t).getLast? = t.getLast? := by
      rw [List.getLast?_append, List.getLast?_cons]
      obtain ⟨x, hx⟩ := Option.isSome_iff_exists.1 (List.getLast?_isSome.2 ht)
      simp [hx]
    rw [hl] at hc
    exact hc.elim h.1 h.2

example : (c!"12:30:00+01:00").getLast? ≠ some 'Z' ∧ (c!"12:30:00+01:00").getLast? ≠ some 'z' := by decide

/-- C196. The years of the time period of bare dates, exactly: both are written if they are from 1000 on. -/
theorem period_written (a b : Day) (ha : IsDate a) (hb : IsDate b) :
    timePeriod (dateText a) (dateText b) =
      if 1000 ≤ a.year ∧ 1000 ≤ b.year then .ok ((a.year : Int), (b.year : Int)) else .error .valueError := by
  unfold timePeriod
  rw [date_read a ha, date_read b hb]
  have h1 := (Admin.years_written a).1
  have h2 := (Admin.years_written b).2
  have := ha.2.1
  have := hb.2.1
  simp only [bind, Except.bind, h1, h2]
  by_cases hx : 1000 ≤ a.year
  · by_cases hy : 1000 ≤ b.year
    · simp [hx, hy, ha.2.1, hb.2.1]
    · simp [hx, hy, ha.2.1]
  · simp [hx]

end Verif.Dates
