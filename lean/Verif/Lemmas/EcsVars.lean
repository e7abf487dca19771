/-
Lemmas on the variables of an EcoSpold2 data set.
-/
import Verif.Lemmas.EcsFormulas
import Verif.Lemmas.Num

namespace Verif.EcsVars
open IlcdVars (replaceAll replaceAux)
open Segs Spec

variable {K : Type}

/-! ### All references, all conversions -/

theorem mixed_nil {ref val : Str → Str} {l : List (Str × Str)} {last : Str} :
    rend (mixed ref val []) l last = rend ref l last := by
  have : mixed ref val [] = ref := by funext e; simp [mixed]
  rw [this]

theorem mixed_all {ref val : Str → Str} {done : List Str} {last : Str} : ∀ {l : List (Str × Str)},
    (∀ p ∈ l, p.2 ∈ done) → rend (mixed ref val done) l last = rend val l last
  | [], _ => rfl
  | (t, e) :: l, h => by
    have h1 : e ∈ done := h (t, e) (by simp)
    have ih := mixed_all (ref := ref) (val := val) (done := done) (last := last) (l := l)
      (fun p hp => h p (List.mem_cons_of_mem _ hp))
    simp only [rend, ih]
    simp [mixed, h1]

theorem splitOn_none {c : Char} : ∀ {s : Str}, c ∉ s → splitOn c s = [s]
  | [], _ => rfl
  | x :: s, h => by
    simp only [List.mem_cons, not_or] at h
    rw [splitOn, if_neg (Ne.symm h.1), splitOn_none h.2]

theorem splitOn_cons {c : Char} {r : Str} : ∀ {s : Str}, c ∉ s → splitOn c (s ++ c :: r) = s :: splitOn c r
  | [], _ => by simp [splitOn]
  | x :: s, h => by
    simp only [List.mem_cons, not_or] at h
    rw [List.cons_append, splitOn, if_neg (Ne.symm h.1), splitOn_cons h.2]

theorem fixRefsLoop_step {env : Env K} {e t : Str} {value : Option Str} {math : Str} {l : List Str}
    (h : RefValue env e t) :
    fixRefsLoop env value math (e :: l) = fixRefsLoop env (some t) (replaceAll (refMark e) t math) l := by
  cases h with
  | amount h1 h2 =>
    simp only [fixRefsLoop, splitOn_none h1, List.headD_cons, h2]
    rfl
  | @volume i sep v p h1 h2 h3 =>
    have hs : splitOn '\'' (i ++ c!"'" ++ sep ++ c!"'ProductionVolume") = [i, sep, c!"ProductionVolume"] := by
      rw [show i ++ c!"'" ++ sep ++ c!"'ProductionVolume" = i ++ '\'' :: (sep ++ '\'' :: c!"ProductionVolume") by simp,
        splitOn_cons h1, splitOn_cons h2, splitOn_none (by decide)]
    rw [fixRefsLoop]
    simp only [hs, List.headD_cons, h3, if_true, strOpt]
    rfl

theorem fixRefsLoop_rend {env : Env K} {val : Str → Str} {l : List (Str × Str)} {last : Str}
    (hp : ∀ p ∈ l, PlainRef p.2) (hc : ¬ c!"Ref('" <:+: rend val l last) :
    ∀ {es done : List Str} {value : Option Str}, (∀ e ∈ es, PlainRef e ∧ RefValue env e (val e)) →
    fixRefsLoop env value (rend (mixed refMark val done) l last) es =
      .ok (rend (mixed refMark val (es.reverse ++ done)) l last)
  | [], done, value, _ => rfl
  | e :: es, done, value, he => by
    obtain ⟨h1, h2⟩ := he e (by simp)
    rw [fixRefsLoop_step h2, replaceAll, if_neg (by simp [refMark])]
    have := replace_rend (done := done) (acc := []) ref_borderless (e := e) (by simp [refMark]) refMark_start
      (fun p hm hne r => refMark_prefix h1 (hp p hm) hne r) (fun p hm r => refMark_tail (hp p hm) r)
      (by simpa using hc)
    simp only [List.nil_append] at this
    rw [this, fixRefsLoop_rend hp hc (fun e' h' => he e' (by simp [h']))]
    simp [List.append_assoc]

theorem replaceQuotes (c : UnitCall) (h : PlainCall c) :
    replaceAll c!"'" [] c.text = c.arg ++ (c!", " ++ (c.src ++ (c!", " ++ c.dst))) := by
  unfold UnitCall.text
  have h1 : replaceAll c!"'" [] c!", '" = c!", " := by decide
  have h2 : replaceAll c!"'" [] c!"', '" = c!", " := by decide
  have h3 : replaceAll c!"'" [] c!"'" = [] := by decide
  rw [replaceAll_char_append, replaceAll_char_append, replaceAll_char_append, replaceAll_char_append,
    replaceAll_char_append, replaceAll_char_none h.quotes.1, replaceAll_char_none h.quotes.2.1,
    replaceAll_char_none h.quotes.2.2, h1, h2, h3, List.append_nil]

theorem parens_of_plain {c : UnitCall} (h : PlainCall c) : NoParens c.text := ⟨h.opening, h.closing, h.start⟩

/-- What is known of one conversion of units in a formula: the text that replaces it, the name of the
conversion and its factor. -/
def UnitValue (env : Env K) (e : Str) (t n : Str) (f : K) : Prop :=
  ∃ c : UnitCall, e = c.text ∧ PlainCall c ∧ ∃ a b ua ub, env.unit c.src = .ok a ∧ env.unit c.dst = .ok b ∧
    env.conv a b = .ok (ua, ub, f) ∧ n = convStr ua ub ∧ t = c!"(" ++ argText env c.arg ++ c!"*" ++ n ++ c!")"

theorem UnitValue.parens {env : Env K} {e t n : Str} {f : K} (h : UnitValue env e t n f) : NoParens e := by
  obtain ⟨c, rfl, hp, -⟩ := h
  exact parens_of_plain hp

theorem fixUnit_step {env : Env K} {s : St K} {e t n math : Str} {f : K} (h : UnitValue env e t n f) :
    fixUnit env s math e = .ok (define s n f, replaceAll (unitMark e) t math) := by
  obtain ⟨c, rfl, hp, a, b, ua, ub, h1, h2, h3, rfl, rfl⟩ := h
  rw [fixUnit, replaceQuotes c hp, splitComma_three hp.commas.1 hp.commas.2.1 hp.commas.2.2]
  have hm : List.mapM env.unit [c.src, c.dst] = .ok [a, b] := by
    simp only [List.mapM_cons, List.mapM_nil, h1, h2]
    rfl
  simp only [hm, h3]
  rfl

theorem fixUnitsLoop_rend {env : Env K} {val cname : Str → Str} {fac : Str → K} {l : List (Str × Str)} {last : Str}
    (hp : ∀ p ∈ l, NoParens p.2) (hc : ¬ c!"UnitConversion" <:+: rend val l last) :
    ∀ {es done : List Str} {s : St K}, (∀ e ∈ es, UnitValue env e (val e) (cname e) (fac e)) →
    fixUnitsLoop env s (rend (mixed unitMark val done) l last) es =
      .ok (es.foldl (fun s e => define s (cname e) (fac e)) s, rend (mixed unitMark val (es.reverse ++ done)) l last)
  | [], done, s, _ => rfl
  | e :: es, done, s, he => by
    have h2 := he e (by simp)
    rw [fixUnitsLoop, fixUnit_step h2]
    simp only [replaceAll]
    rw [if_neg (by simp [unitMark])]
    have := replace_rend (done := done) (acc := []) unit_borderless (e := e) (by simp [unitMark]) unitMark_start
      (fun p hm hne r => unitMark_prefix h2.parens (hp p hm) hne r) (fun p hm r => unitMark_tail (hp p hm) r)
      (by simpa using hc)
    simp only [List.nil_append] at this
    rw [this, fixUnitsLoop_rend hp hc (fun e' h' => he e' (by simp [h']))]
    simp [List.append_assoc]

/-! ### The names of the parameters -/

/-- The names are different, and are those of the parameters and those in `extra`. -/
structure Inv (extra : List Str) (s : St K) : Prop where
  nodup : s.names.Nodup
  perm : (extra ++ s.params.map Param.name).Perm s.names

/-- What a step may add: parameters for which `new` holds. -/
structure Step (new : Str → K → Prop) (s s' : St K) : Prop where
  names : s.names ⊆ s'.names
  old : s.params <+: s'.params
  added : ∀ p ∈ s'.params, p ∈ s.params ∨ new p.name p.value

theorem Step.refl {new : Str → K → Prop} (s : St K) : Step new s s :=
  ⟨fun _ h => h, List.prefix_refl _, fun _ h => .inl h⟩

theorem Step.trans {new new1 new2 : Str → K → Prop} {s s1 s2 : St K} (h1 : Step new1 s s1) (h2 : Step new2 s1 s2)
    (hn1 : ∀ n v, new1 n v → new n v) (hn2 : ∀ n v, new2 n v → new n v) : Step new s s2 :=
  ⟨fun _ h => h2.names (h1.names h), h1.old.trans h2.old, fun p hp => by
    rcases h2.added p hp with h | h
    · rcases h1.added p h with h | h
      · exact .inl h
      · exact .inr (hn1 _ _ h)
    · exact .inr (hn2 _ _ h)⟩

theorem define_inv {extra : List Str} {s : St K} {n : Str} {v : K} (h : Inv extra s) :
    Inv extra (define s n v) ∧ Step (fun n' v' => n' = n ∧ v' = v) s (define s n v) ∧ n ∈ (define s n v).names := by
  unfold define
  split
  · rename_i hm
    exact ⟨h, .refl s, hm⟩
  · rename_i hm
    refine ⟨⟨?_, ?_⟩, ⟨fun x hx => by simp [hx], ⟨_, rfl⟩, ?_⟩, by simp⟩
    · have := h.nodup
      simp only [List.nodup_append, List.nodup_cons, List.not_mem_nil, not_false_eq_true, List.nodup_nil,
        and_self, List.mem_singleton, true_and]
      exact ⟨this, fun a ha b hb => by subst hb; exact fun e => hm (e ▸ ha)⟩
    · simp only [List.map_append, List.map_cons, List.map_nil, ← List.append_assoc]
      exact h.perm.append_right _
    · intro p hp
      simp only [List.mem_append, List.mem_singleton] at hp
      rcases hp with hp | rfl
      · exact .inl hp
      · exact .inr ⟨rfl, rfl⟩

/-- A parameter for a conversion of units in a formula. -/
def ConvParam (env : Env K) (n : Str) (v : K) : Prop := ∃ a b ua ub, env.conv a b = .ok (ua, ub, v) ∧ n = convStr ua ub

theorem fixUnit_inv {env : Env K} {extra : List Str} {s s' : St K} {math math' e : Str} (h : Inv extra s)
    (he : fixUnit env s math e = .ok (s', math')) : Inv extra s' ∧ Step (ConvParam env) s s' := by
  unfold fixUnit at he
  split at he
  · cases he
  · split at he
    · cases he
    · split at he
      · cases he
      · rename_i a b _ _ _ ua ub f hconv
        obtain ⟨rfl, -⟩ := Prod.mk.inj (Except.ok.inj he)
        obtain ⟨h1, h2, -⟩ := define_inv (n := convStr ua ub) (v := f) h
        refine ⟨h1, h2.names, h2.old, fun p hp => ?_⟩
        rcases h2.added p hp with h | ⟨hn, hv⟩
        · exact .inl h
        · exact .inr ⟨_, _, ua, ub, hv ▸ hconv, hn⟩
    · cases he

theorem fixUnitsLoop_inv {env : Env K} {extra : List Str} : ∀ {l : List Str} {s s' : St K} {math math' : Str}, Inv extra s →
    fixUnitsLoop env s math l = .ok (s', math') → Inv extra s' ∧ Step (ConvParam env) s s'
  | [], s, s', math, math', h, he => by
    obtain ⟨rfl, -⟩ := Prod.mk.inj (Except.ok.inj he)
    exact ⟨h, .refl _⟩
  | e :: l, s, s', math, math', h, he => by
    rw [fixUnitsLoop] at he
    split at he
    · cases he
    · rename_i s1 m1 h1
      obtain ⟨i1, p1⟩ := fixUnit_inv h h1
      obtain ⟨i2, p2⟩ := fixUnitsLoop_inv i1 he
      exact ⟨i2, p1.trans p2 (fun _ _ h => h) (fun _ _ h => h)⟩

theorem fixUnits_inv {env : Env K} {extra : List Str} {s s' : St K} {math math' : Str} (h : Inv extra s)
    (he : fixUnits env s math = .ok (s', math')) : Inv extra s' ∧ Step (ConvParam env) s s' := by
  unfold fixUnits at he
  split at he
  · exact fixUnitsLoop_inv h he
  · obtain ⟨rfl, -⟩ := Prod.mk.inj (Except.ok.inj he)
    exact ⟨h, .refl _⟩

theorem create_inv {env : Env K} {s s' : St K} {n : Str} {m : Option Str} {v : K} (h : Inv [] s)
    (he : create env s n m v = .ok s') :
    Inv [] s' ∧ Step (fun n' v' => ConvParam env n' v' ∨ (n' = n ∧ v' = v)) s s' ∧ n ∈ s'.names := by
  unfold create at he
  split at he
  · rename_i hm
    obtain rfl := Except.ok.inj he
    exact ⟨h, .refl _, hm⟩
  · rename_i hm
    have h0 : Inv [n] ({ s with names := s.names ++ [n] } : St K) := by
      refine ⟨?_, ?_⟩
      · have := h.nodup
        simp only [List.nodup_append, List.nodup_cons, List.not_mem_nil, not_false_eq_true, List.nodup_nil,
          and_self, List.mem_singleton, true_and]
        exact ⟨this, fun a ha b hb => by subst hb; exact fun e => hm (e ▸ ha)⟩
      · exact (List.perm_append_comm).trans (h.perm.append_right _)
    simp only at he
    split at he
    · obtain rfl := Except.ok.inj he
      refine ⟨⟨h0.nodup, ?_⟩, ⟨fun x hx => by simp [hx], ⟨_, rfl⟩, ?_⟩, by simp⟩
      · simp only [List.map_append, List.map_cons, List.map_nil, List.nil_append]
        exact List.perm_append_comm.trans h0.perm
      · intro p hp
        simp only [List.mem_append, List.mem_singleton] at hp
        rcases hp with hp | rfl
        · exact .inl hp
        · exact .inr (.inr ⟨rfl, rfl⟩)
    · split at he
      · cases he
      · rename_i s1 m1 h1
        obtain ⟨i1, p1⟩ := fixUnits_inv h0 h1
        split at he
        · cases he
        · obtain rfl := Except.ok.inj he
          refine ⟨⟨i1.nodup, ?_⟩, ⟨?_, ?_, ?_⟩, ?_⟩
          · simp only [List.map_append, List.map_cons, List.map_nil, List.nil_append]
            exact List.perm_append_comm.trans i1.perm
          · intro x hx
            exact p1.names (by simp [hx])
          · exact p1.old.trans ⟨_, rfl⟩
          · intro p hp
            simp only [List.mem_append, List.mem_singleton] at hp
            rcases hp with hp | rfl
            · rcases p1.added p hp with h | h
              · exact .inl h
              · exact .inr (.inl h)
            · exact .inr (.inr ⟨rfl, rfl⟩)
          · exact p1.names (by simp)

theorem natStr_cons (n : Nat) : ∃ d l, natStr n = d :: l ∧ isDigit d = true := by
  cases h : natStr n with
  | nil => exact absurd h (natStr_ne_nil n)
  | cons d l =>
    refine ⟨d, l, rfl, ?_⟩
    have := natStr_digit (n := n) (c := d) (by rw [h]; simp)
    simpa [Char.isDigit, isDigit, Char.le_def] using this

theorem eqName_made (k : Nat) (kind : Str) (h : kind = c!"flow") :
    eqName (c!"Eq_" ++ kind.take 2 ++ c!"_" ++ natStr k) = true := by
  subst h
  obtain ⟨d, l, hd, hdig⟩ := natStr_cons k
  rw [hd]
  simp [eqName, isLower, hdig]

variable [DecidableEq K] [Mul K] [One K]

/-- The parameters the conversion of an amount may add. -/
def NewParam (env : Env K) (q : Quantity K) (r : Option Str) (n : Str) (v : K) : Prop :=
  ConvParam env n v ∨ (r = some n ∧ Refers q v) ∨ (q.name = some n ∧ v = q.value) ∨
    (Converted q ∧ n = convStr q.unitFrom q.unitTo ∧ v = q.factor)

omit [DecidableEq K] [Mul K] [One K] in
theorem counter_inv {extra : List Str} {s : St K} {k : Nat} (h : Inv extra s) : Inv extra { s with counter := k } :=
  ⟨h.nodup, h.perm⟩

omit [DecidableEq K] [Mul K] [One K] in
theorem counter_step {new : Str → K → Prop} {s s' : St K} {k : Nat} (h : Step new { s with counter := k } s') : Step new s s' :=
  ⟨h.names, h.old, h.added⟩

omit [DecidableEq K] [Mul K] [One K] in
theorem varOf_name {k : Nat} {q : Quantity K} {n : Str} {m : Option Str} (h : varOf k q = some (n, m)) :
    q.name = some n ∨ n = c!"Eq_" ++ q.kind.take 2 ++ c!"_" ++ natStr k := by
  unfold varOf at h
  split at h
  · cases h
  · simp only [Option.some.injEq, Prod.mk.injEq] at h
    obtain ⟨h1, -⟩ := h
    cases hq : q.name with
    | none => rw [hq] at h1; exact .inr h1.symm
    | some x => rw [hq] at h1; exact .inl (congrArg some h1)

theorem construct_inv {env : Env K} {s s' : St K} {q : Quantity K} {k : Nat} {r : Option Str} (h : Inv [] s)
    (he : construct env s q (varOf k q) = .ok (s', r)) :
    Inv [] s' ∧ Step (NewParam env q r) s s' ∧ (∀ n, r = some n → n ∈ s'.names) ∧
      (∀ n m, varOf k q = some (n, m) → (Converted q → eqName n = false) → n ∈ s'.names) ∧
      (Converted q → convStr q.unitFrom q.unitTo ∈ s'.names ∧ r.isSome) ∧ (r = none → varOf k q = none) := by
  unfold construct at he
  simp only at he
  split at he
  · rename_i hconv
    split at he
    · rename_i n m hv
      split at he
      · cases he
      · rename_i s1 h1
        split at he
        · cases he
        · rename_i s2 h2
          obtain ⟨rfl, rfl⟩ := Prod.mk.inj (Except.ok.inj he)
          have hs1 : Inv [] s1 ∧ Step (NewParam env q (some (convertedName n (convStr q.unitFrom q.unitTo)))) s s1 ∧
              (eqName n = false → n ∈ s1.names) := by
            split at h1
            · rename_i heq
              obtain rfl := Except.ok.inj h1
              exact ⟨h, .refl _, fun hf => by rw [heq] at hf; cases hf⟩
            · rename_i heq
              obtain ⟨i1, p1, m1⟩ := create_inv h h1
              refine ⟨i1, ⟨p1.names, p1.old, fun p hp => ?_⟩, fun _ => m1⟩
              rcases p1.added p hp with hp | hp | ⟨hp1, hp2⟩
              · exact .inl hp
              · exact .inr (.inl hp)
              · refine .inr (.inr (.inr (.inl ⟨?_, hp2⟩)))
                rcases varOf_name hv with hn | hn
                · rw [hp1, hn]
                · exact absurd (hn ▸ eqName_made k q.kind hconv.2) heq
          obtain ⟨i1, p1, m1⟩ := hs1
          obtain ⟨i2, p2, m2⟩ := create_inv (counter_inv i1) h2
          obtain ⟨i3, p3, m3⟩ := define_inv (n := convStr q.unitFrom q.unitTo) (v := q.factor) i2
          refine ⟨i3, ?_, ?_, ?_, ?_, ?_⟩
          · refine p1.trans ((counter_step p2).trans p3 (new := NewParam env q _) ?_ ?_) (fun _ _ h => h) (fun _ _ h => h)
            · rintro n' v' (hc | ⟨rfl, rfl⟩)
              · exact .inl hc
              · exact .inr (.inl ⟨rfl, fun _ => rfl, fun hn => absurd hconv hn⟩)
            · rintro n' v' ⟨rfl, rfl⟩
              exact .inr (.inr (.inr ⟨hconv, rfl, rfl⟩))
          · intro n' hn'
            obtain rfl := Option.some.inj hn'
            exact p3.names m2
          · intro n' m' hv' hf
            rw [hv] at hv'
            obtain ⟨rfl, -⟩ := Prod.mk.inj (Option.some.inj hv')
            exact p3.names (p2.names (m1 (hf hconv)))
          · intro _
            exact ⟨m3, rfl⟩
          · intro hn; cases hn
    · rename_i hv
      split at he
      · cases he
      · rename_i s2 h2
        obtain ⟨rfl, rfl⟩ := Prod.mk.inj (Except.ok.inj he)
        obtain ⟨i2, p2, m2⟩ := create_inv (counter_inv h) h2
        obtain ⟨i3, p3, m3⟩ := define_inv (n := convStr q.unitFrom q.unitTo) (v := q.factor) i2
        refine ⟨i3, ?_, ?_, ?_, ?_, ?_⟩
        · refine (counter_step p2).trans p3 (new := NewParam env q _) ?_ ?_
          · rintro n' v' (hc | ⟨rfl, rfl⟩)
            · exact .inl hc
            · exact .inr (.inl ⟨rfl, fun _ => rfl, fun hn => absurd hconv hn⟩)
          · rintro n' v' ⟨rfl, rfl⟩
            exact .inr (.inr (.inr ⟨hconv, rfl, rfl⟩))
        · intro n' hn'
          obtain rfl := Option.some.inj hn'
          exact p3.names m2
        · intro n' m' hv'
          rw [hv] at hv'; cases hv'
        · intro _
          exact ⟨m3, rfl⟩
        · intro hn; cases hn
  · rename_i hconv
    split at he
    · rename_i n m hv
      split at he
      · cases he
      · rename_i s1 h1
        obtain ⟨rfl, rfl⟩ := Prod.mk.inj (Except.ok.inj he)
        obtain ⟨i1, p1, m1⟩ := create_inv h h1
        refine ⟨i1, ⟨p1.names, p1.old, fun p hp => ?_⟩, ?_, ?_, ?_, ?_⟩
        · rcases p1.added p hp with hp | hp | ⟨hp1, hp2⟩
          · exact .inl hp
          · exact .inr (.inl hp)
          · exact .inr (.inr (.inl ⟨by rw [hp1], fun hc => absurd hc hconv, fun _ => hp2⟩))
        · intro n' hn'
          obtain rfl := Option.some.inj hn'
          exact m1
        · intro n' m' hv' _
          rw [hv] at hv'
          obtain ⟨rfl, -⟩ := Prod.mk.inj (Option.some.inj hv')
          exact m1
        · intro hc; exact absurd hc hconv
        · intro hn; cases hn
    · rename_i hv
      obtain ⟨rfl, rfl⟩ := Prod.mk.inj (Except.ok.inj he)
      refine ⟨h, .refl _, by simp, ?_, fun hc => absurd hc hconv, fun _ => hv⟩
      intro n' m' hv'
      rw [hv] at hv'; cases hv'

/-- The amounts with variables as they are named. -/
def Named (l : List (Quantity K × Option (Str × Option Str))) : Prop := ∀ p ∈ l, ∃ k, p.2 = varOf k p.1

omit [DecidableEq K] [Mul K] [One K] in
theorem nameAll_named : ∀ {l : List (Quantity K)} {n : Nat}, Named (nameAll n l).1 ∧ (nameAll n l).1.map Prod.fst = l
  | [], n => ⟨by simp [Named, nameAll], rfl⟩
  | q :: l, n => by
    obtain ⟨h1, h2⟩ := @nameAll_named l (if (varOf n q).isSome then n + 1 else n)
    refine ⟨?_, ?_⟩
    · intro p hp
      simp only [nameAll, List.mem_cons] at hp
      rcases hp with rfl | hp
      · exact ⟨n, rfl⟩
      · exact h1 p hp
    · simp only [nameAll, List.map_cons, h2]

theorem constructAll_inv {env : Env K} : ∀ {l : List (Quantity K × Option (Str × Option Str))} {s s' : St K}
    {rs : List (Quantity K × Option Str)}, Inv [] s → Named l → constructAll env s l = .ok (s', rs) →
    Inv [] s' ∧ Step (fun n v => ∃ q r, (q, r) ∈ rs ∧ NewParam env q r n v) s s' ∧ rs.map Prod.fst = l.map Prod.fst ∧
      (∀ q n, (q, some n) ∈ rs → n ∈ s'.names) ∧
      (∀ q n m, (q, some (n, m)) ∈ l → (Converted q → eqName n = false) → n ∈ s'.names) ∧
      (∀ q, q ∈ l.map Prod.fst → Converted q → convStr q.unitFrom q.unitTo ∈ s'.names)
  | [], s, s', rs, h, _, he => by
    obtain ⟨rfl, rfl⟩ := Prod.mk.inj (Except.ok.inj he)
    exact ⟨h, .refl _, rfl, by simp, by simp, by simp⟩
  | (q, var) :: l, s, s', rs, h, hn, he => by
    rw [constructAll] at he
    split at he
    · cases he
    · rename_i s1 r h1
      split at he
      · cases he
      · rename_i s2 rs' h2
        obtain ⟨rfl, rfl⟩ := Prod.mk.inj (Except.ok.inj he)
        obtain ⟨k, hk⟩ := hn (q, var) (by simp)
        simp only at hk
        subst hk
        obtain ⟨i1, p1, r1, v1, c1, -⟩ := construct_inv h h1
        obtain ⟨i2, p2, f2, r2, v2, c2⟩ := constructAll_inv i1 (fun p hp => hn p (by simp [hp])) h2
        refine ⟨i2, p1.trans p2 ?_ ?_, by simp [f2], ?_, ?_, ?_⟩
        · intro n v hnew
          exact ⟨q, r, by simp, hnew⟩
        · rintro n v ⟨q', r', hm, hnew⟩
          exact ⟨q', r', by simp [hm], hnew⟩
        · intro q' n hm
          rcases List.mem_cons.1 hm with e | hm
          · obtain ⟨-, e⟩ := Prod.mk.inj e
            exact p2.names (r1 n e.symm)
          · exact r2 q' n hm
        · intro q' n m hm hf
          rcases List.mem_cons.1 hm with e | hm
          · obtain ⟨rfl, e⟩ := Prod.mk.inj e
            exact p2.names (v1 n m e.symm hf)
          · exact v2 q' n m hm hf
        · intro q' hm hc
          rcases List.mem_cons.1 hm with e | hm
          · subst e
            exact p2.names (c1 hc).1
          · exact c2 q' hm hc

end Verif.EcsVars
