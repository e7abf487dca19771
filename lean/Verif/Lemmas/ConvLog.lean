import Verif.Spec.ConvLog
import Mathlib.Tactic.Common

/-! The matcher of `end_log` on the text of a log. -/

namespace Verif.ConvLog

open Spec

variable {word : Char → Bool}

theorem dropPre_some : ∀ {p s r : Str}, dropPre p s = some r ↔ s = p ++ r
  | [], s, r => by simp [dropPre]
  | c :: p, [], r => by simp [dropPre]
  | c :: p, d :: s, r => by
    unfold dropPre
    by_cases h : c = d
    · subst h; simp [dropPre_some (p := p)]
    · simp only [if_neg h]
      constructor
      · intro h2; cases h2
      · intro h2; exact absurd (List.cons.inj h2).1.symm h

theorem dropPre_append (p r : Str) : dropPre p (p ++ r) = some r := dropPre_some.2 rfl

theorem dropPre_none {p s : Str} : dropPre p s = none ↔ ¬ ∃ r, s = p ++ r := by
  constructor
  · rintro h ⟨r, hr⟩; rw [dropPre_some.2 hr] at h; cases h
  · intro h
    cases h2 : dropPre p s with
    | none => rfl
    | some r => exact absurd ⟨r, dropPre_some.1 h2⟩ h

/-- Two texts are the same up to the first line end. -/
theorem first_eq {c : Char} : ∀ {a a' b b' : Str}, a ++ c :: b = a' ++ c :: b' → c ∉ a → c ∉ a' → a = a' ∧ b = b'
  | [], [], _, _, h, _, _ => ⟨rfl, (List.cons.inj h).2⟩
  | [], d :: a', _, _, h, _, h2 => by
    have := (List.cons.inj h).1; subst this; exact absurd (List.mem_cons_self ..) h2
  | d :: a, [], _, _, h, h1, _ => by
    have := (List.cons.inj h).1; subst this; exact absurd (List.mem_cons_self ..) h1
  | d :: a, e :: a', b, b', h, h1, h2 => by
    have hh := List.cons.inj h
    have := first_eq hh.2 (fun hm => h1 (List.mem_cons_of_mem _ hm)) (fun hm => h2 (List.mem_cons_of_mem _ hm))
    exact ⟨by rw [hh.1, this.1], this.2⟩

/-- A text without a line end that is in front is in front of the first line end. -/
theorem prefix_line {c : Char} : ∀ {p a b r : Str}, a ++ c :: b = p ++ r → c ∉ p → ∃ r', a = p ++ r'
  | [], a, _, _, _, _ => ⟨a, rfl⟩
  | d :: p, [], _, _, h, hp => by
    have := (List.cons.inj h).1; subst this; exact absurd (List.mem_cons_self ..) hp
  | d :: p, e :: a, b, r, h, hp => by
    have hh := List.cons.inj h
    obtain ⟨r', hr⟩ := prefix_line hh.2 (fun hm => hp (List.mem_cons_of_mem _ hm))
    exact ⟨r', by rw [hh.1, hr]; rfl⟩

/-- At least one character that is no part of a word is needed between the mark and the message. -/
theorem gap_none_iff {s : Str} : gap word s = none ↔ s = [] ∨ ∃ c r, s = c :: r ∧ word c = true := by
  unfold gap
  cases s with
  | nil => simp
  | cons c r => cases h : word c <;> simp [h]

theorem gap_eq {w r : Str} (hw : ∀ c ∈ w, word c = false) (hn : w ≠ []) (hr : ∀ c s, r = c :: s → word c = true) :
    gap word (w ++ r) = some r := by
  have h1 : (w ++ r).takeWhile (fun c => !word c) = w := by
    rw [List.takeWhile_append_of_pos (by intro c hc; simp [hw c hc])]
    cases r with
    | nil => simp
    | cons c s => simp [hr c s rfl]
  have h2 : (w ++ r).dropWhile (fun c => !word c) = r := by
    rw [List.dropWhile_append_of_pos (by intro c hc; simp [hw c hc])]
    cases r with
    | nil => simp
    | cons c s => simp [hr c s rfl]
  unfold gap
  rw [h1, h2, if_neg hn]

/-- Texts are signs in front and a rest that begins with a letter. -/
theorem word_split (word : Char → Bool) : ∀ s : Str, ∃ w r, s = w ++ r ∧ (∀ c ∈ w, word c = false) ∧
    ∀ c t, r = c :: t → word c = true
  | [] => ⟨[], [], rfl, by simp, by simp⟩
  | c :: s => by
    cases h : word c with
    | true => exact ⟨[], c :: s, rfl, by simp, by intro d t hd; rw [← (List.cons.inj hd).1]; exact h⟩
    | false =>
      obtain ⟨w, r, hs, hw, hr⟩ := word_split word s
      refine ⟨c :: w, r, by rw [hs]; rfl, ?_, hr⟩
      intro d hd
      rcases List.mem_cons.1 hd with rfl | hd
      · exact h
      · exact hw d hd

theorem idChar_newline : idChar '\n' = false := by decide

theorem takeId_some {s i r : Str} : takeId s = some (i, r) ↔ s = i ++ r ∧ i.length = 36 ∧ ∀ c ∈ i, idChar c = true := by
  unfold takeId
  constructor
  · intro h
    split at h
    · rename_i hc
      simp only [Option.some.injEq, Prod.mk.injEq] at h
      obtain ⟨rfl, rfl⟩ := h
      exact ⟨(List.take_append_drop 36 s).symm, hc.1, List.all_eq_true.1 hc.2⟩
    · cases h
  · rintro ⟨rfl, hl, ha⟩
    have h1 : (i ++ r).take 36 = i := by rw [← hl]; exact List.take_left
    have h2 : (i ++ r).drop 36 = r := by rw [← hl]; exact List.drop_left
    rw [h1, h2, if_pos ⟨hl, List.all_eq_true.2 ha⟩]

/-- What follows the identifier. -/
def afterId (word : Char → Bool) (s : Str) : Option Str :=
  (((dropPre c!"\nWARNING -" s).bind (gap word)).bind (dropPre c!"Flow not converted ")).bind reason

theorem afterName_eq (s : Str) : afterName word s =
    ((dropPre c!" : " s).bind takeId).bind fun p => (afterId word p.2).map fun r => (p.1, r) := rfl

theorem afterName_some {s i r : Str} (h : afterName word s = some (i, r)) :
    ∃ t, s = c!" : " ++ i ++ t ∧ i.length = 36 ∧ (∀ c ∈ i, idChar c = true) ∧ afterId word t = some r := by
  rw [afterName_eq] at h
  obtain ⟨⟨j, t⟩, h1, h2⟩ := Option.bind_eq_some_iff.1 h
  obtain ⟨u, h3, h4⟩ := Option.bind_eq_some_iff.1 h1
  obtain ⟨q, h5, h6⟩ := Option.map_eq_some_iff.1 h2
  obtain ⟨h7, h8, h9⟩ := takeId_some.1 h4
  simp only [Prod.mk.injEq] at h6
  obtain ⟨rfl, rfl⟩ := h6
  refine ⟨t, ?_, h8, h9, h5⟩
  rw [dropPre_some.1 h3, h7, List.append_assoc]

theorem afterId_newline {t r : Str} (h : afterId word t = some r) : ∃ u, t = '\n' :: u := by
  unfold afterId at h
  obtain ⟨a, h1, _⟩ := Option.bind_eq_some_iff.1 h
  obtain ⟨b, h2, _⟩ := Option.bind_eq_some_iff.1 h1
  obtain ⟨d, h3, _⟩ := Option.bind_eq_some_iff.1 h2
  exact ⟨_, dropPre_some.1 h3⟩

theorem id_no_newline {i : Str} (h : ∀ c ∈ i, idChar c = true) : '\n' ∉ i := by
  intro hm
  have := h _ hm
  rw [idChar_newline] at this
  cases this

/-- The name ends 39 characters before the end of the line. -/
theorem afterName_length {u rest : Str} (hu : '\n' ∉ u) {i r : Str}
    (h : afterName word (u ++ '\n' :: rest) = some (i, r)) : u.length = 39 := by
  obtain ⟨t, h1, h2, h3, h4⟩ := afterName_some h
  obtain ⟨v, rfl⟩ := afterId_newline h4
  have h5 : '\n' ∉ c!" : " ++ i := by
    intro hm
    rcases List.mem_append.1 hm with hm | hm
    · revert hm; decide
    · exact id_no_newline h3 hm
  have := (first_eq h1 hu h5).1
  rw [this, List.length_append, h2]
  rfl

theorem afterName_none {u rest : Str} (hu : '\n' ∉ u) (hl : u.length ≠ 39) :
    afterName word (u ++ '\n' :: rest) = none := by
  cases h : afterName word (u ++ '\n' :: rest) with
  | none => rfl
  | some p => exact absurd (afterName_length hu (i := p.1) (r := p.2) h) hl

theorem nameChar_newline : nameChar '\n' = false := by decide

theorem name_no_newline {n : Str} (h : ∀ c ∈ n, nameChar c = true) : '\n' ∉ n := by
  intro hm
  have := h _ hm
  rw [nameChar_newline] at this
  cases this

theorem lazyName_end : ∀ {u : Str} (acc rest : Str), (∀ c ∈ u, nameChar c = true) → u.length < 39 →
    lazyName word acc (u ++ '\n' :: rest) = none
  | [], acc, rest, _, _ => by
    have h : afterName word ('\n' :: rest) = none := afterName_none (u := []) (by simp) (by simp)
    show lazyName word acc ('\n' :: rest) = none
    unfold lazyName
    rw [h, ite_self]
    simp [nameChar_newline]
  | c :: u, acc, rest, hc, hl => by
    have h : afterName word (c :: u ++ '\n' :: rest) = none := afterName_none (name_no_newline hc) (by omega)
    show lazyName word acc (c :: (u ++ '\n' :: rest)) = none
    unfold lazyName
    rw [show c :: (u ++ '\n' :: rest) = c :: u ++ '\n' :: rest from rfl, h, ite_self]
    simp only [hc c (List.mem_cons_self ..), if_true]
    exact lazyName_end _ _ (fun d hd => hc d (List.mem_cons_of_mem _ hd)) (by simp at hl; omega)

theorem nameChar_id {c : Char} (h : idChar c = true) : nameChar c = true := by
  unfold idChar at h
  simp only [Bool.or_eq_true, Bool.and_eq_true, decide_eq_true_eq] at h
  have hn : (33 ≤ c.toNat ∧ c.toNat ≤ 126) := by
    rcases h with (⟨h1, h2⟩ | ⟨h1, h2⟩) | rfl
    · have a : ('0' : Char).toNat ≤ c.toNat := h1
      have b : c.toNat ≤ ('9' : Char).toNat := h2
      have a' : ('0' : Char).toNat = 48 := rfl
      have b' : ('9' : Char).toNat = 57 := rfl
      omega
    · have a : ('a' : Char).toNat ≤ c.toNat := h1
      have b : c.toNat ≤ ('f' : Char).toNat := h2
      have a' : ('a' : Char).toNat = 97 := rfl
      have b' : ('f' : Char).toNat = 102 := rfl
      omega
    · decide
  unfold nameChar
  by_cases hs : pySpace c = true
  · unfold pySpace at hs
    simp only [Bool.or_eq_true, Bool.and_eq_true, decide_eq_true_eq, beq_iff_eq] at hs
    omega
  · simp [hs]

theorem afterName_id {i t : Str} (hi : PlainId i) :
    afterName word (c!" : " ++ i ++ t) = (afterId word t).map fun r => (i, r) := by
  rw [afterName_eq, List.append_assoc, dropPre_append, Option.bind_some, takeId_some.2 ⟨rfl, hi.1, hi.2⟩,
    Option.bind_some]

theorem lazyName_name {i rest : Str} (hi : PlainId i) : ∀ {n : Str} (acc : Str), acc ++ n ≠ [] →
    (∀ c ∈ n, nameChar c = true) →
    lazyName word acc (n ++ (c!" : " ++ i ++ '\n' :: rest)) =
      (afterId word ('\n' :: rest)).map fun r => ((acc ++ n, i), r)
  | [], acc, ha, _ => by
    have ha : acc ≠ [] := by simpa using ha
    have h := afterName_id (word := word) (t := '\n' :: rest) hi
    show lazyName word acc (' ' :: (c!": " ++ i ++ '\n' :: rest)) = _
    unfold lazyName
    rw [show ' ' :: (c!": " ++ i ++ '\n' :: rest) = c!" : " ++ i ++ '\n' :: rest from rfl, if_neg ha, h]
    cases h2 : afterId word ('\n' :: rest) with
    | some r => simp
    | none =>
      simp only [Option.map_none, show nameChar ' ' = true by decide, if_true]
      refine lazyName_end _ _ ?_ ?_
      · intro c hc
        rcases List.mem_append.1 hc with hc | hc
        · exact List.all_eq_true.1 (by decide : (c!": ").all nameChar = true) c hc
        · exact nameChar_id (hi.2 c hc)
      · rw [List.length_append, hi.1]; decide
  | c :: n, acc, _, hn => by
    have h : afterName word (c :: (n ++ (c!" : " ++ i ++ '\n' :: rest))) = none := by
      have h1 : '\n' ∉ c :: (n ++ (c!" : " ++ i)) := by
        intro hm
        rw [show c :: (n ++ (c!" : " ++ i)) = (c :: n) ++ (c!" : " ++ i) from rfl] at hm
        rcases List.mem_append.1 hm with hm | hm
        · exact name_no_newline hn hm
        · rcases List.mem_append.1 hm with hm | hm
          · revert hm; decide
          · exact id_no_newline hi.2 hm
      have h2 : (c :: (n ++ (c!" : " ++ i))).length ≠ 39 := by
        simp only [List.length_cons, List.length_append, hi.1, List.length_nil]
        omega
      have := afterName_none (word := word) (rest := rest) h1 h2
      simpa using this
    show lazyName word acc (c :: (n ++ (c!" : " ++ i ++ '\n' :: rest))) = _
    unfold lazyName
    rw [h, ite_self]
    simp only [hn c (List.mem_cons_self ..), if_true]
    rw [lazyName_name hi (acc ++ [c]) (by simp) (fun d hd => hn d (List.mem_cons_of_mem _ hd))]
    simp

/-- The log begins with a letter or is empty. -/
theorem render_head (hw : Words word) : ∀ (l : List Entry) c t, render l = c :: t → word c = true
  | [], c, t, h => by simp [render] at h
  | ⟨.info, m⟩ :: l, c, t, h => by
    have : c = 'I' := by
      have h : c!"INFO" ++ c!" - " ++ m ++ c!"\n" ++ render l = c :: t := h
      exact (List.cons.inj h).1.symm
    rw [this]; exact hw.i
  | ⟨.warning, m⟩ :: l, c, t, h => by
    have : c = 'W' := by
      have h : c!"WARNING" ++ c!" - " ++ m ++ c!"\n" ++ render l = c :: t := h
      exact (List.cons.inj h).1.symm
    rw [this]; exact hw.w

/-- After the level of an entry that does not begin with `p` nothing else gives `p` either. -/
theorem gap_quiet (hw : Words word) {p msg : Str} (hp : '\n' ∉ p)
    (hI : ∀ r, p ≠ 'I' :: r) (hW : ∀ r, p ≠ 'W' :: r) (hne : p ≠ [])
    (hq : ∀ w r, msg = w ++ r → (∀ c ∈ w, word c = false) → ¬ ∃ b, r = p ++ b) (l : List Entry) :
    (gap word (' ' :: (msg ++ '\n' :: render l))).bind (dropPre p) = none := by
  obtain ⟨w, r, hm, h1, h2⟩ := word_split word msg
  have hb : ∀ c ∈ ' ' :: w, word c = false := by
    intro c hc
    rcases List.mem_cons.1 hc with rfl | hc
    · exact hw.blank
    · exact h1 c hc
  cases r with
  | cons c t =>
    have h3 : gap word ((' ' :: w) ++ (c :: t ++ '\n' :: render l)) = some (c :: t ++ '\n' :: render l) := by
      refine gap_eq hb (by simp) ?_
      intro d s hd
      rw [← (List.cons.inj hd).1]
      exact h2 c t rfl
    have h4 : ' ' :: (msg ++ '\n' :: render l) = (' ' :: w) ++ (c :: t ++ '\n' :: render l) := by
      rw [hm]; simp
    rw [h4, h3, Option.bind_some]
    refine dropPre_none.2 ?_
    rintro ⟨b, hb2⟩
    exact hq w (c :: t) hm h1 (prefix_line hb2 hp)
  | nil =>
    have h3 : gap word ((' ' :: w ++ ['\n']) ++ render l) = some (render l) := by
      refine gap_eq ?_ (by simp) (render_head hw l)
      intro c hc
      rcases List.mem_append.1 hc with hc | hc
      · exact hb c hc
      · rw [List.mem_singleton.1 hc]; exact hw.newline
    have h4 : ' ' :: (msg ++ '\n' :: render l) = (' ' :: w ++ ['\n']) ++ render l := by
      rw [hm]; simp
    rw [h4, h3, Option.bind_some]
    refine dropPre_none.2 ?_
    rintro ⟨b, hb2⟩
    cases p with
    | nil => exact hne rfl
    | cons x p =>
      cases l with
      | nil => simp [render] at hb2
      | cons e l =>
        rcases e with ⟨lv, m⟩
        cases lv with
        | info =>
          have hb3 : c!"INFO" ++ c!" - " ++ m ++ c!"\n" ++ render l = x :: (p ++ b) := hb2
          have := (List.cons.inj hb3).1
          exact hI p (by rw [← this])
        | warning =>
          have hb3 : c!"WARNING" ++ c!" - " ++ m ++ c!"\n" ++ render l = x :: (p ++ b) := hb2
          have := (List.cons.inj hb3).1
          exact hW p (by rw [← this])

theorem render_cons (e : Entry) (l : List Entry) : render (e :: l) = line e ++ render l := rfl

theorem line_eq (e : Entry) (t : Str) : line e ++ t = e.level.text ++ (c!" - " ++ (e.msg ++ '\n' :: t)) := by
  simp [line]

theorem afterId_nil : afterId word (c!"\n") = none := rfl

theorem afterId_info (m : Str) (l : List Entry) : afterId word ('\n' :: render (⟨.info, m⟩ :: l)) = none := rfl

theorem afterId_quiet (hw : Words word) {m : Str}
    (hq : ∀ w r, m = w ++ r → (∀ c ∈ w, word c = false) → ¬ ∃ b, r = c!"Flow not converted " ++ b)
    (l : List Entry) : afterId word ('\n' :: render (⟨.warning, m⟩ :: l)) = none := by
  have h : '\n' :: render (⟨.warning, m⟩ :: l) = c!"\nWARNING -" ++ (' ' :: (m ++ '\n' :: render l)) := by
    rw [render_cons, line_eq]; rfl
  have h2 := gap_quiet hw (p := c!"Flow not converted ") (by decide) (by intro r; simp) (by intro r; simp) (by decide)
    hq l
  unfold afterId
  rw [h, dropPre_append, Option.bind_some, h2]
  rfl

theorem reason_lost (b : Bool) (t : Str) :
    reason ((if b then c!"due to lack of elementary flow correspondence in the"
      else c!"as the flow is not present on the elementary flow") ++ (c!" mapping file" ++ t)) = some t := by
  cases b
  · show ((dropPre c!"due to lack of elementary flow correspondence in the" _).or _).bind _ = _
    rw [if_neg (by decide), dropPre_append]
    rfl
  · rw [if_pos rfl]
    unfold reason
    rw [dropPre_append]
    rfl

theorem afterId_lost (hw : Words word) (b : Bool) (t : Str) :
    afterId word ('\n' :: (line (notConverted b) ++ t)) = some ('\n' :: t) := by
  have h : '\n' :: (line (notConverted b) ++ t) = c!"\nWARNING -" ++ (c!" \t\t" ++ (c!"Flow not converted " ++
      ((if b then c!"due to lack of elementary flow correspondence in the"
      else c!"as the flow is not present on the elementary flow") ++ (c!" mapping file" ++ '\n' :: t)))) := by
    rw [line_eq]; simp [notConverted, Level.text]
  have hg : ∀ u : Str, gap word (c!" \t\t" ++ (c!"Flow not converted " ++ u)) = some (c!"Flow not converted " ++ u) := by
    intro u
    refine gap_eq ?_ (by simp) ?_
    · intro c hc
      simp only [List.mem_cons, List.not_mem_nil, or_false] at hc
      rcases hc with rfl | rfl | rfl
      · exact hw.blank
      · exact hw.tab
      · exact hw.tab
    · intro c s hc
      rw [← (List.cons.inj hc).1]; exact hw.f
  unfold afterId
  rw [h, dropPre_append, Option.bind_some, hg, Option.bind_some, dropPre_append, Option.bind_some, reason_lost]

theorem matchAt_start (hw : Words word) {n i : Str} (hn : PlainName n) (hi : PlainId i) (t : Str) :
    matchAt word (line (started n i) ++ t) = (afterId word ('\n' :: t)).map fun r => ((n, i), r) := by
  have h : line (started n i) ++ t = c!"INFO -" ++ (c!" \t" ++ (c!"Starting conversion of flow " ++
      (n ++ (c!" : " ++ i ++ '\n' :: t)))) := by
    rw [line_eq]; simp [started, Level.text]
  have hg : ∀ u : Str, gap word (c!" \t" ++ (c!"Starting conversion of flow " ++ u)) =
      some (c!"Starting conversion of flow " ++ u) := by
    intro u
    refine gap_eq ?_ (by simp) ?_
    · intro c hc
      simp only [List.mem_cons, List.not_mem_nil, or_false] at hc
      rcases hc with rfl | rfl
      · exact hw.blank
      · exact hw.tab
    · intro c s hc
      rw [← (List.cons.inj hc).1]; exact hw.s
  have hc : ∀ c ∈ n, nameChar c = true := by
    intro c hc
    rcases hn.2 c hc with h | h <;> simp [nameChar, h]
  unfold matchAt
  rw [h, dropPre_append, Option.bind_some, hg, Option.bind_some, dropPre_append, Option.bind_some,
    lazyName_name hi [] (by simpa using hn.1) hc]
  rfl

theorem matchAt_quiet (hw : Words word) {m : Str}
    (hq : ∀ w r, m = w ++ r → (∀ c ∈ w, word c = false) → ¬ ∃ b, r = c!"Starting conversion of flow " ++ b)
    (l : List Entry) : matchAt word (render (⟨.info, m⟩ :: l)) = none := by
  have h : render (⟨.info, m⟩ :: l) = c!"INFO -" ++ (' ' :: (m ++ '\n' :: render l)) := by
    rw [render_cons, line_eq]; rfl
  have h2 := gap_quiet hw (p := c!"Starting conversion of flow ") (by decide) (by intro r; simp) (by intro r; simp)
    (by decide) hq l
  unfold matchAt
  rw [h, dropPre_append, Option.bind_some, h2]
  rfl

theorem findAll_cons_none {n : Nat} {c : Char} {s : Str} (h : matchAt word (c :: s) = none) :
    findAll word (n + 1) (c :: s) = findAll word n s := by
  rw [findAll, h]

theorem matchAt_prefix {s : Str} (h : ¬ ∃ r, s = c!"INFO -" ++ r) : matchAt word s = none := by
  unfold matchAt
  rw [dropPre_none.2 h]
  rfl

theorem occurs_cons {x : Str} {c : Char} {s : Str} (h : Occurs x s) : Occurs x (c :: s) := by
  obtain ⟨a, b, rfl⟩ := h
  exact ⟨c :: a, b, rfl⟩

/-- Nothing is found in a piece of the log that ends with a line and does not hold `INFO -`. -/
theorem findAll_skip : ∀ (a : Str) (k : Nat) (rest : Str), ¬ Occurs c!"INFO -" a →
    findAll word (a.length + 1 + k) (a ++ '\n' :: rest) = findAll word k rest
  | [], k, rest, _ => by
    have h : matchAt word ('\n' :: rest) = none := rfl
    rw [show ([] : Str).length + 1 + k = k + 1 by simp; omega]
    exact findAll_cons_none h
  | c :: a, k, rest, ho => by
    have h : matchAt word (c :: a ++ '\n' :: rest) = none := by
      refine matchAt_prefix ?_
      rintro ⟨r, hr⟩
      obtain ⟨r', hr'⟩ := prefix_line hr (by decide)
      exact ho ⟨[], r', by simpa using hr'⟩
    rw [show (c :: a).length + 1 + k = (a.length + 1 + k) + 1 by simp; omega]
    rw [show c :: a ++ '\n' :: rest = c :: (a ++ '\n' :: rest) from rfl] at h ⊢
    rw [findAll_cons_none h]
    exact findAll_skip a k rest (fun h2 => ho (occurs_cons h2))

theorem occurs_of_cons {x s : Str} {c : Char} (h : Occurs x (c :: s)) (hp : ¬ ∃ r, c :: s = x ++ r) : Occurs x s := by
  obtain ⟨a, b, hab⟩ := h
  cases a with
  | nil => exact absurd ⟨b, by simpa using hab⟩ hp
  | cons d a => exact ⟨a, b, (List.cons.inj hab).2⟩

theorem occurs_info {m : Str} (h : Occurs c!"INFO -" (c!"NFO - " ++ m)) : Occurs c!"INFO -" m := by
  have h := occurs_of_cons h (by rintro ⟨r, hr⟩; simp at hr)
  have h := occurs_of_cons h (by rintro ⟨r, hr⟩; simp at hr)
  have h := occurs_of_cons h (by rintro ⟨r, hr⟩; simp at hr)
  have h := occurs_of_cons h (by rintro ⟨r, hr⟩; simp at hr)
  have h := occurs_of_cons h (by rintro ⟨r, hr⟩; simp at hr)
  exact occurs_of_cons h (by rintro ⟨r, hr⟩; simp at hr)

theorem occurs_warning {m : Str} (h : Occurs c!"INFO -" (c!"WARNING - " ++ m)) : Occurs c!"INFO -" m := by
  have h := occurs_of_cons h (by rintro ⟨r, hr⟩; simp at hr)
  have h := occurs_of_cons h (by rintro ⟨r, hr⟩; simp at hr)
  have h := occurs_of_cons h (by rintro ⟨r, hr⟩; simp at hr)
  have h := occurs_of_cons h (by rintro ⟨r, hr⟩; simp at hr)
  have h := occurs_of_cons h (by rintro ⟨r, hr⟩; simp at hr)
  have h := occurs_of_cons h (by rintro ⟨r, hr⟩; simp at hr)
  have h := occurs_of_cons h (by rintro ⟨r, hr⟩; simp at hr)
  have h := occurs_of_cons h (by rintro ⟨r, hr⟩; simp at hr)
  have h := occurs_of_cons h (by rintro ⟨r, hr⟩; simp at hr)
  exact occurs_of_cons h (by rintro ⟨r, hr⟩; simp at hr)

theorem occurs_letters {p : Str} (hp : 'I' ∉ p) {m : Str} (h : Occurs c!"INFO -" (p ++ m)) : Occurs c!"INFO -" m := by
  induction p with
  | nil => exact h
  | cons c p ih =>
    refine ih (fun hm => hp (List.mem_cons_of_mem _ hm)) (occurs_of_cons h ?_)
    rintro ⟨r, hr⟩
    exact hp (by rw [(List.cons.inj hr).1]; exact List.mem_cons_self ..)

/-- An occurrence in a name and what follows it is an occurrence in the name. -/
theorem occurs_name {n i : Str} (hi : PlainId i) : Occurs c!"INFO -" (n ++ (c!" : " ++ i)) → Occurs c!"INFO -" n := by
  have hI : 'I' ∉ c!" : " ++ i := by
    intro hm
    rcases List.mem_append.1 hm with hm | hm
    · revert hm; decide
    · exact absurd (hi.2 _ hm) (by decide)
  induction n with
  | nil =>
    rintro ⟨a, b, h⟩
    exfalso
    apply hI
    have h : c!" : " ++ i = a ++ c!"INFO -" ++ b := h
    rw [h]; simp
  | cons c n ih =>
    intro h
    by_cases hp : ∃ r, c :: n = c!"INFO -" ++ r
    · obtain ⟨r, hr⟩ := hp; exact ⟨[], r, by simpa using hr⟩
    · refine occurs_cons (ih (occurs_of_cons h ?_))
      rintro ⟨r, hr⟩
      apply hp
      obtain ⟨h0, hr⟩ := List.cons.inj (show c :: (n ++ (c!" : " ++ i)) = 'I' :: (c!"NFO -" ++ r) from hr)
      rcases n with _ | ⟨n1, _ | ⟨n2, _ | ⟨n3, _ | ⟨n4, _ | ⟨n5, n⟩⟩⟩⟩⟩ <;> simp_all

theorem findAll_nil (n : Nat) : findAll word n [] = [] := by cases n <;> rfl

/-- The entries in front that are not found are skipped. -/
theorem findAll_line {e : Entry} (k : Nat) (l : List Entry) (ho : ¬ Occurs c!"INFO -" e.msg)
    (hm : matchAt word (render (e :: l)) = none) :
    findAll word ((line e).length + k) (render (e :: l)) = findAll word k (render l) := by
  rcases e with ⟨lv, m⟩
  cases lv with
  | info =>
    have h : render (⟨.info, m⟩ :: l) = 'I' :: ((c!"NFO - " ++ m) ++ '\n' :: render l) := by
      rw [render_cons, line_eq]; simp [Level.text]
    rw [h] at hm ⊢
    rw [show (line ⟨.info, m⟩).length + k = ((c!"NFO - " ++ m).length + 1 + k) + 1 by
      simp [line, Level.text]; omega]
    rw [findAll_cons_none hm]
    exact findAll_skip _ k _ fun h2 => ho (occurs_info h2)
  | warning =>
    have h : render (⟨.warning, m⟩ :: l) = (c!"WARNING - " ++ m) ++ '\n' :: render l := by
      rw [render_cons, line_eq]; simp [Level.text]
    rw [h]
    rw [show (line ⟨.warning, m⟩).length + k = (c!"WARNING - " ++ m).length + 1 + k by
      simp [line, Level.text]]
    exact findAll_skip _ k _ fun h2 => ho (occurs_warning h2)

theorem matchAt_warning (m : Str) (l : List Entry) : matchAt word (render (⟨.warning, m⟩ :: l)) = none := rfl

theorem occurs_started {n i : Str} (hi : PlainId i) (hn : ¬ Occurs c!"INFO -" n) :
    ¬ Occurs c!"INFO -" (started n i).msg := by
  intro h
  have h : Occurs c!"INFO -" (c!"\tStarting conversion of flow " ++ (n ++ (c!" : " ++ i))) := by
    simpa [started] using h
  exact hn (occurs_name hi (occurs_letters (by decide) h))

theorem occurs_lost (b : Bool) : ¬ Occurs c!"INFO -" (notConverted b).msg := by
  rintro ⟨x, y, h⟩
  have hm : 'I' ∈ (notConverted b).msg := by rw [h]; simp
  revert hm
  cases b <;> decide

/-- What is found in the text of a log, with enough steps. -/
theorem findAll_render (hw : Words word) : ∀ (l : List Event), (∀ e ∈ l, Plain word e) → ∀ k,
    findAll word ((render (l.map entry)).length + k) (render (l.map entry)) = reported l
  | [], _, k => by
    show findAll word _ [] = []
    exact findAll_nil _
  | .other e :: l, h, k => by
    have he : Quiet word e := h _ (List.mem_cons_self ..)
    have hm : matchAt word (render (e :: l.map entry)) = none := by
      rcases e with ⟨lv, m⟩
      cases lv with
      | info => exact matchAt_quiet hw (fun w r h1 h2 => (he.2 w r h1 h2).1 rfl) _
      | warning => exact matchAt_warning _ _
    have := findAll_line ((render (l.map entry)).length + k) (l.map entry) he.1 hm
    have h2 := findAll_render hw l (fun e he => h e (List.mem_cons_of_mem _ he)) k
    rw [h2] at this
    rw [show reported (.other e :: l) = reported l by simp [reported]]
    rw [← this]
    show findAll word ((line e ++ render (l.map entry)).length + k) _ = _
    rw [List.length_append, Nat.add_assoc]
    rfl
  | .lost b :: l, h, k => by
    have := findAll_line (word := word) ((render (l.map entry)).length + k) (l.map entry) (occurs_lost b)
      (matchAt_warning _ _)
    have h2 := findAll_render hw l (fun e he => h e (List.mem_cons_of_mem _ he)) k
    rw [h2] at this
    rw [show reported (.lost b :: l) = reported l by simp [reported]]
    rw [← this]
    show findAll word ((line (notConverted b) ++ render (l.map entry)).length + k) _ = _
    rw [List.length_append, Nat.add_assoc]
    rfl
  | .start n i :: l, h, k => by
    obtain ⟨hn, hi, ho⟩ : PlainName n ∧ PlainId i ∧ ¬ Occurs c!"INFO -" n := h _ (List.mem_cons_self ..)
    have hrest : ∀ e ∈ l, Plain word e := fun e he => h e (List.mem_cons_of_mem _ he)
    have hs := matchAt_start hw hn hi (render (l.map entry))
    have key : (afterId word ('\n' :: render (l.map entry)) = none) → reported (.start n i :: l) = reported l →
        findAll word ((render ((Event.start n i :: l).map entry)).length + k)
          (render ((Event.start n i :: l).map entry)) = reported (.start n i :: l) := by
      intro ha hr
      rw [ha] at hs
      have := findAll_line (word := word) ((render (l.map entry)).length + k) (l.map entry)
        (occurs_started hi ho) hs
      have h2 := findAll_render hw l hrest k
      rw [h2] at this
      rw [hr, ← this]
      show findAll word ((line (started n i) ++ render (l.map entry)).length + k) _ = _
      rw [List.length_append, Nat.add_assoc]
      rfl
    cases l with
    | nil => exact key afterId_nil rfl
    | cons e l =>
      cases e with
      | other e =>
        have he : Quiet word e := hrest _ (List.mem_cons_self ..)
        refine key ?_ (by simp [reported])
        rcases e with ⟨lv, m⟩
        cases lv with
        | info => exact afterId_info _ _
        | warning => exact afterId_quiet hw (fun w r h1 h2 => (he.2 w r h1 h2).2 rfl) _
      | start n' i' => exact key (afterId_info _ _) (by simp [reported])
      | lost b =>
        have ha : afterId word ('\n' :: render ((Event.lost b :: l).map entry)) = some ('\n' :: render (l.map entry)) :=
          afterId_lost hw b _
        rw [ha] at hs
        have hs : matchAt word (render ((Event.start n i :: .lost b :: l).map entry)) =
            some ((n, i), '\n' :: render (l.map entry)) := hs
        have h3 : ∃ c t, render ((Event.start n i :: .lost b :: l).map entry) = c :: t := ⟨'I', _, rfl⟩
        obtain ⟨c, t, hct⟩ := h3
        have hlen : ∃ j, (render ((Event.start n i :: .lost b :: l).map entry)).length + k =
            ((render (l.map entry)).length + j + 1) + 1 := by
          refine ⟨(render ((Event.start n i :: .lost b :: l).map entry)).length + k -
            (render (l.map entry)).length - 2, ?_⟩
          have : (render ((Event.start n i :: .lost b :: l).map entry)).length =
              (line (started n i)).length + ((line (notConverted b)).length + (render (l.map entry)).length) := by
            show (line (started n i) ++ (line (notConverted b) ++ render (l.map entry))).length = _
            rw [List.length_append, List.length_append]
          have h5 : 2 ≤ (line (started n i)).length := by simp [line, Level.text, started]
          omega
        obtain ⟨j, hj⟩ := hlen
        rw [hj, hct]
        rw [hct] at hs
        rw [findAll, hs]
        show (n, i) :: _ = _
        rw [show reported (.start n i :: .lost b :: l) = (n, i) :: reported l by simp [reported]]
        congr 1
        rw [findAll_cons_none (show matchAt word ('\n' :: render (l.map entry)) = none from rfl)]
        exact findAll_render hw l (fun e he => hrest e (List.mem_cons_of_mem _ he)) j


/-- Nothing is found in a log without the beginning of a flow. -/
theorem findAll_no_start (hw : Words word) : ∀ (l : List Entry) (k : Nat),
    (∀ e ∈ l, ¬ Occurs c!"INFO -" e.msg ∧ (e.level = .info → ∀ w r, e.msg = w ++ r → (∀ c ∈ w, word c = false) →
      ¬ ∃ b, r = c!"Starting conversion of flow " ++ b)) →
    findAll word ((render l).length + k) (render l) = []
  | [], k, _ => findAll_nil _
  | e :: l, k, h => by
    have he := h e (List.mem_cons_self ..)
    have hm : matchAt word (render (e :: l)) = none := by
      rcases e with ⟨lv, m⟩
      cases lv with
      | info => exact matchAt_quiet hw (he.2 rfl) _
      | warning => exact matchAt_warning _ _
    have h1 := findAll_line ((render l).length + k) l he.1 hm
    rw [findAll_no_start hw l k fun e he => h e (List.mem_cons_of_mem _ he)] at h1
    rw [render_cons, List.length_append, Nat.add_assoc, ← render_cons]
    exact h1

/-- The rest after a name whose characters run into a tabulator. -/
theorem lazyName_tab {c : Char} (hc : nameChar c = false) (hn : c ≠ '\n') : ∀ (n acc t : Str),
    (∀ d ∈ n, nameChar d = true) → lazyName word acc (n ++ c :: t) = none := by
  have key : ∀ u t : Str, (∀ d ∈ u, nameChar d = true) → afterName word (u ++ c :: t) = none := by
    intro u t hu
    cases h : afterName word (u ++ c :: t) with
    | none => rfl
    | some p =>
      obtain ⟨s, h1, h2, h3, h4⟩ := afterName_some (i := p.1) (r := p.2) h
      obtain ⟨v, rfl⟩ := afterId_newline h4
      exfalso
      rcases List.append_eq_append_iff.1 h1 with ⟨x, h5, h6⟩ | ⟨x, h5, h6⟩
      · cases x with
        | nil => exact hn (List.cons.inj h6).1
        | cons d x =>
          have hd : d = c := (List.cons.inj h6).1.symm
          subst hd
          have hm : d ∈ c!" : " ++ p.1 := by rw [h5]; simp
          rcases List.mem_append.1 hm with hm | hm
          · rw [List.all_eq_true.1 (by decide : (c!" : ").all nameChar = true) d hm] at hc; cases hc
          · rw [nameChar_id (h3 d hm)] at hc; cases hc
      · cases x with
        | nil => exact hn (List.cons.inj h6).1.symm
        | cons d x =>
          have hd : d = '\n' := (List.cons.inj h6).1.symm
          subst hd
          exact name_no_newline hu (by rw [h5]; simp)
  intro n
  induction n with
  | nil =>
    intro acc t _
    show lazyName word acc (c :: t) = none
    unfold lazyName
    rw [show afterName word (c :: t) = none from key [] t (by simp), ite_self]
    simp [hc]
  | cons d n ih =>
    intro acc t hd
    show lazyName word acc (d :: (n ++ c :: t)) = none
    unfold lazyName
    rw [show afterName word (d :: (n ++ c :: t)) = none from key (d :: n) t hd, ite_self]
    simp only [hd d (List.mem_cons_self ..), if_true]
    exact ih _ _ fun e he => hd e (List.mem_cons_of_mem _ he)

theorem last_eq {c : Char} {a a' b b' : Str} (h : a ++ c :: b = a' ++ c :: b') (h1 : c ∉ b) (h2 : c ∉ b') : b = b' := by
  have hr : b.reverse ++ c :: a.reverse = b'.reverse ++ c :: a'.reverse := by
    have := congrArg List.reverse h
    simpa using this
  have := (first_eq hr (by simpa using h1) (by simpa using h2)).1
  exact List.reverse_inj.1 this

/-- Nothing is found behind a name if no identifier ends the line. -/
theorem lazyName_odd {rest : Str} : ∀ (u acc : Str), (∀ c ∈ u, nameChar c = true) →
    (∀ x i, u = x ++ c!" : " ++ i → ¬ PlainId i) → lazyName word acc (u ++ '\n' :: rest) = none
  | u, acc, hu, hi => by
    have h : afterName word (u ++ '\n' :: rest) = none := by
      cases h : afterName word (u ++ '\n' :: rest) with
      | none => rfl
      | some p =>
        obtain ⟨t, h1, h2, h3, h4⟩ := afterName_some (i := p.1) (r := p.2) h
        obtain ⟨v, rfl⟩ := afterId_newline h4
        have h5 : '\n' ∉ c!" : " ++ p.1 := by
          intro hm
          rcases List.mem_append.1 hm with hm | hm
          · revert hm; decide
          · exact id_no_newline h3 hm
        have := (first_eq h1 (name_no_newline hu) h5).1
        exact absurd ⟨h2, h3⟩ (hi [] p.1 (by simpa using this))
    cases u with
    | nil =>
      show lazyName word acc ('\n' :: rest) = none
      unfold lazyName
      rw [show afterName word ('\n' :: rest) = none from h, ite_self]
      simp [nameChar_newline]
    | cons c u =>
      show lazyName word acc (c :: (u ++ '\n' :: rest)) = none
      unfold lazyName
      rw [show afterName word (c :: (u ++ '\n' :: rest)) = none from h, ite_self]
      simp only [hu c (List.mem_cons_self ..), if_true]
      refine lazyName_odd u _ (fun d hd => hu d (List.mem_cons_of_mem _ hd)) ?_
      intro x i hx
      exact hi (c :: x) i (by rw [hx]; rfl)

theorem matchAt_started (hw : Words word) (n i t : Str) :
    matchAt word (line (started n i) ++ t) = lazyName word [] (n ++ c!" : " ++ i ++ '\n' :: t) := by
  have h : line (started n i) ++ t = c!"INFO -" ++ (c!" \t" ++ (c!"Starting conversion of flow " ++
      (n ++ c!" : " ++ i ++ '\n' :: t))) := by
    rw [line_eq]; simp [started, Level.text]
  have hg : ∀ u : Str, gap word (c!" \t" ++ (c!"Starting conversion of flow " ++ u)) =
      some (c!"Starting conversion of flow " ++ u) := by
    intro u
    refine gap_eq ?_ (by simp) ?_
    · intro c hc
      simp only [List.mem_cons, List.not_mem_nil, or_false] at hc
      rcases hc with rfl | rfl
      · exact hw.blank
      · exact hw.tab
    · intro c s hc
      rw [← (List.cons.inj hc).1]; exact hw.s
  unfold matchAt
  rw [h, dropPre_append, Option.bind_some, hg, Option.bind_some, dropPre_append, Option.bind_some]

end Verif.ConvLog
