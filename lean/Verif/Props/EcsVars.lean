/-
The variables and formulas of an EcoSpold2 data set converted to ILCD.
-/
import Verif.Lemmas.EcsVars
import Mathlib.Algebra.Field.Defs
import Mathlib.Algebra.GroupWithZero.Basic

namespace Verif.EcsVars
open IlcdVars (replaceAll)
open Segs Spec

variable {K : Type}

/-! ### Formulas -/

/-- C66: the references of a formula are replaced by the amounts and production volumes they stand for, each
of them and nothing else. The texts between the references are arbitrary; the only condition is that no
reference comes about by what is put in. -/
theorem refs_replaced {env : Env K} {val : Str → Str} {l : List (Str × Str)} {last : Str}
    (hp : ∀ p ∈ l, PlainRef p.2 ∧ RefValue env p.2 (val p.2)) (hc : ¬ c!"Ref('" <:+: rend val l last) :
    fixRefs env (rend refMark l last) = .ok (rend val l last) := by
  unfold fixRefs
  have hp' := fun p hm => (hp p hm).1
  have hf : findRefs (rend refMark l last) = l.map Prod.snd := findRefs_rend hp' hc
  have hl := fixRefsLoop_rend (env := env) (value := none) (done := []) hp' hc (es := l.map Prod.snd) (by
    intro e he
    obtain ⟨p, hm, rfl⟩ := List.mem_map.1 he
    exact hp p hm)
  rw [mixed_nil] at hl
  rw [hf, hl, mixed_all (by
    intro p hm
    simp only [List.append_nil, List.mem_reverse]
    exact List.mem_map.2 ⟨p, hm, rfl⟩)]
  split
  · rfl
  · rename_i hno
    cases l with
    | nil => rfl
    | cons p l =>
      exfalso
      apply hno
      rw [IlcdVars.isInfix_iff]
      refine ⟨p.1, c!"'" ++ (p.2 ++ (c!"')" ++ rend refMark l last)), ?_⟩
      simp [rend, refMark, List.append_assoc]

/-- C66: a reference to an exchange that is not there fails. -/
theorem ref_unknown {env : Env K} {e : Str} (h : PlainRef e) (hq : '\'' ∉ e) (hf : env.flow e = none) :
    fixRefs env (refMark e) = .error .keyError := by
  have h1 : findRefs (refMark e) = [e] := by
    have := findRefs_ref h []
    rw [List.append_nil] at this
    exact this
  have h2 : isInfix c!"Ref(" (refMark e) = true :=
    IlcdVars.isInfix_iff.2 ⟨[], c!"'" ++ (e ++ c!"')"), by simp [refMark]⟩
  rw [fixRefs, if_pos h2, h1, fixRefsLoop]
  simp [splitOn_none hq, hf]

/-- C66 fails for the production volume of an exchange without one: the word `None` is put into the
formula. -/
theorem ref_none {env : Env K} {i : Str} {v : K} (h : PlainRef (i ++ c!"','ProductionVolume")) (hq : '\'' ∉ i)
    (hf : env.flow i = some (v, none)) : fixRefs env (refMark (i ++ c!"','ProductionVolume")) = .ok c!"None" := by
  have h1 : findRefs (refMark (i ++ c!"','ProductionVolume")) = [i ++ c!"','ProductionVolume"] := by
    have := findRefs_ref h []
    rw [List.append_nil] at this
    exact this
  have h2 : isInfix c!"Ref(" (refMark (i ++ c!"','ProductionVolume")) = true :=
    IlcdVars.isInfix_iff.2 ⟨[], c!"'" ++ ((i ++ c!"','ProductionVolume") ++ c!"')"), by simp [refMark]⟩
  have h3 : splitOn '\'' (i ++ c!"','ProductionVolume") = [i, c!",", c!"ProductionVolume"] := by
    rw [show i ++ c!"','ProductionVolume" = i ++ '\'' :: (c!"," ++ '\'' :: c!"ProductionVolume") by simp,
      splitOn_cons hq, splitOn_cons (by decide), splitOn_none (by decide)]
  rw [fixRefs, if_pos h2, h1, fixRefsLoop]
  simp only [h3, List.headD_cons, hf, if_true, strOpt, fixRefsLoop, replaceAll]
  rw [if_neg (by simp)]
  have h4 := IlcdVars.replaceAux_hit (old := refMark (i ++ c!"','ProductionVolume")) (new := c!"None") (s := [])
    (by simp [refMark])
  rw [List.append_nil] at h4
  exact congrArg Except.ok h4

theorem factor_eq {env : Env K} {x t : Str} (h : Factor env x t) : t = argText env x := by
  have he : replaceAll c!"_" [] (replaceAll c!"," c!"." x) =
      (x.map fun c => if c = ',' then '.' else c).filter fun c => c ≠ '_' := by
    rw [replaceAll_char, replaceAll_char]
    clear h
    induction x with
    | nil => rfl
    | cons c x ih =>
      rw [List.flatMap_cons, List.flatMap_append, ih, List.map_cons]
      by_cases h1 : c = ','
      · simp [h1]
      · by_cases h2 : c = '_'
        · simp [h2]
        · simp [h1, h2]
  cases h with
  | number h => rw [argText, he, h]
  | formula h => rw [argText, he, h]

/-- C66: the conversions of units in a formula are replaced by the argument times the variable of the
conversion, and these variables are defined with the factors. -/
theorem units_replaced {env : Env K} {s : St K} {val cname : Str → Str} {fac : Str → K} {l : List (Str × Str)} {last : Str}
    (hp : ∀ p ∈ l, ∃ c : UnitCall, p.2 = c.text ∧ PlainCall c ∧ ∃ a b ua ub, env.unit c.src = .ok a ∧
      env.unit c.dst = .ok b ∧ env.conv a b = .ok (ua, ub, fac p.2) ∧ cname p.2 = c!"__" ++ ua ++ c!"_to_" ++ ub ++ c!"__" ∧
      ∃ t, Factor env c.arg t ∧ val p.2 = c!"(" ++ t ++ c!"*" ++ cname p.2 ++ c!")")
    (hc : ¬ c!"UnitConversion" <:+: rend val l last) (hs : Inv [] s) :
    ∃ s', fixUnits env s (rend unitMark l last) = .ok (s', rend val l last) ∧ (s'.params.map Param.name).Nodup ∧
      ∀ p ∈ l, cname p.2 ∈ s'.params.map Param.name := by
  have hv : ∀ p ∈ l, UnitValue env p.2 (val p.2) (cname p.2) (fac p.2) := by
    intro p hm
    obtain ⟨c, h1, h2, a, b, ua, ub, h3, h4, h5, h6, t, h7, h8⟩ := hp p hm
    exact ⟨c, h1, h2, a, b, ua, ub, h3, h4, h5, h6, by rw [h8, factor_eq h7]⟩
  have hn := fun p hm => (hv p hm).parens
  have hf : unitCalls (rend unitMark l last) = l.map Prod.snd := scan_rend (.inl rfl) hn hc
  have hl := fixUnitsLoop_rend (env := env) (s := s) (done := []) (cname := cname) (fac := fac) hn hc
    (es := l.map Prod.snd) (by
      intro e he
      obtain ⟨p, hm, rfl⟩ := List.mem_map.1 he
      exact hv p hm)
  rw [mixed_nil, mixed_all (by
    intro p hm
    simp only [List.append_nil, List.mem_reverse]
    exact List.mem_map.2 ⟨p, hm, rfl⟩)] at hl
  have hinv : ∀ (es : List Str) (s : St K), Inv [] s →
      Inv [] (es.foldl (fun s e => define s (cname e) (fac e)) s) ∧
      s.names ⊆ (es.foldl (fun s e => define s (cname e) (fac e)) s).names ∧
      ∀ e ∈ es, cname e ∈ (es.foldl (fun s e => define s (cname e) (fac e)) s).names := by
    intro es
    induction es with
    | nil => intro s h; exact ⟨h, fun _ h => h, by simp⟩
    | cons e es ih =>
      intro s h
      obtain ⟨h1, h2, h3⟩ := define_inv (n := cname e) (v := fac e) h
      obtain ⟨i1, i2, i3⟩ := ih _ h1
      refine ⟨i1, fun x hx => i2 (h2.names hx), ?_⟩
      intro e' he'
      rcases List.mem_cons.1 he' with rfl | he'
      · exact i2 h3
      · exact i3 e' he'
  obtain ⟨i1, -, i3⟩ := hinv (l.map Prod.snd) s hs
  refine ⟨(l.map Prod.snd).foldl (fun s e => define s (cname e) (fac e)) s, ?_, ?_, ?_⟩
  · unfold fixUnits
    rw [hf, hl]
    split
    · rfl
    · rename_i hno
      cases l with
      | nil => rfl
      | cons p l =>
        exfalso
        apply hno
        rw [IlcdVars.isInfix_iff]
        refine ⟨p.1, c!"(" ++ (p.2 ++ (c!")" ++ rend unitMark l last)), ?_⟩
        simp [rend, unitMark, List.append_assoc]
  · have := i1.perm
    rw [List.nil_append] at this
    exact this.nodup_iff.2 i1.nodup
  · intro p hm
    have := i1.perm
    rw [List.nil_append] at this
    exact this.mem_iff.2 (i3 p.2 (List.mem_map.2 ⟨p, hm, rfl⟩))

/-- A digit, a comma, a digit. -/
theorem decimalComma_iff {f : Str} : decimalComma f = true ↔
    ∃ a x y b, f = a ++ (x :: ',' :: y :: b) ∧ isDigit x = true ∧ isDigit y = true := by
  induction f with
  | nil =>
    simp [decimalComma]
  | cons a f ih =>
    have hshort : ∀ (l : Str) (a' : Str) (x y : Char) (b : Str), l = a' ++ (x :: ',' :: y :: b) → 3 ≤ l.length := by
      rintro l a' x y b rfl
      simp only [List.length_append, List.length_cons]
      omega
    match f with
    | [] =>
      simp only [decimalComma, Bool.false_eq_true, false_iff]
      rintro ⟨a', x, y, b, h, -⟩
      have := hshort _ _ _ _ _ h
      simp at this
    | [c] =>
      simp only [decimalComma, Bool.false_eq_true, false_iff]
      rintro ⟨a', x, y, b, h, -⟩
      have := hshort _ _ _ _ _ h
      simp at this
    | b :: c :: s =>
      rw [decimalComma, Bool.or_eq_true, ih]
      constructor
      · rintro (h | ⟨a', x, y, r, h, hx, hy⟩)
        · simp only [Bool.and_eq_true, beq_iff_eq] at h
          obtain ⟨⟨h1, rfl⟩, h3⟩ := h
          exact ⟨[], a, c, s, rfl, h1, h3⟩
        · exact ⟨a :: a', x, y, r, by rw [h]; rfl, hx, hy⟩
      · rintro ⟨a', x, y, r, h, hx, hy⟩
        cases a' with
        | nil =>
          simp only [List.nil_append, List.cons.injEq] at h
          obtain ⟨rfl, rfl, rfl, rfl⟩ := h
          left
          simp [hx, hy]
        | cons z a' =>
          simp only [List.cons_append, List.cons.injEq] at h
          exact .inr ⟨a', x, y, r, h.2, hx, hy⟩

/-- C67, where it holds: a formula without a percent sign and without a comma between digits is left alone. -/
theorem plain_formula_kept {f : Str} (h1 : '%' ∉ f)
    (h2 : ¬ ∃ a x y b, f = a ++ (x :: ',' :: y :: b) ∧ isDigit x = true ∧ isDigit y = true) : fixOther f = f := by
  rw [← decimalComma_iff, Bool.not_eq_true] at h2
  unfold fixOther
  rw [replaceAll_char_none h1]
  simp [h2]

/-- C67: a percent sign becomes a division by one hundred, and nothing else is changed, when no comma stands
between digits. -/
theorem percent_replaced {f : Str} (h : decimalComma (f.flatMap fun x => if x = '%' then c!"/ 100" else [x]) = false) :
    fixOther f = f.flatMap fun x => if x = '%' then c!"/ 100" else [x] := by
  unfold fixOther
  rw [replaceAll_char]
  simp [h]

/-- C67 fails: one comma between digits, and every comma of the formula is replaced, also those that separate
the arguments of a function. -/
theorem commas_all_replaced {f : Str} (h1 : '%' ∉ f)
    (h2 : ∃ a x y b, f = a ++ (x :: ',' :: y :: b) ∧ isDigit x = true ∧ isDigit y = true) :
    fixOther f = f.map (fun x => if x = ',' then '.' else x) ∧ ',' ∉ fixOther f := by
  have he : fixOther f = f.map (fun x => if x = ',' then '.' else x) := by
    rw [← decimalComma_iff] at h2
    unfold fixOther
    rw [replaceAll_char_none h1]
    simp only [h2, if_true]
    rw [replaceAll_char]
    induction f with
    | nil => rfl
    | cons c s ih => exact (by
        have : ∀ s : Str, (s.flatMap fun x => if x = ',' then c!"." else [x]) = s.map (fun x => if x = ',' then '.' else x) := by
          intro s
          induction s with
          | nil => rfl
          | cons c s ih =>
            rw [List.flatMap_cons, ih, List.map_cons]
            split <;> rfl
        exact this (c :: s))
  refine ⟨he, ?_⟩
  rw [he]
  intro hm
  obtain ⟨x, -, hx⟩ := List.mem_map.1 hm
  split at hx
  · exact absurd hx (by decide)
  · rename_i hne; exact hne hx

/-- C67 fails on a function of two arguments. -/
theorem arguments_joined : fixOther c!"max(1,2)" = c!"max(1.2)" := by decide

/-! ### Variables -/

variable [DecidableEq K] [Mul K] [One K]

theorem convert_inv {env : Env K} {qs : List (Quantity K)} {ps : List (Param K)} {rs : List (Quantity K × Option Str)}
    (h : convert env qs = .ok (ps, rs)) :
    ∃ s : St K, s.params = ps ∧ Inv [] s ∧ (∀ p ∈ ps, ∃ q r, (q, r) ∈ rs ∧ NewParam env q r p.name p.value) ∧
      rs.map Prod.fst = qs ∧ (∀ q n, (q, some n) ∈ rs → n ∈ s.names) ∧
      (∀ q n m, (q, some (n, m)) ∈ (nameAll 1 qs).1 → (Converted q → eqName n = false) → n ∈ s.names) ∧
      (∀ q ∈ qs, Converted q → convStr q.unitFrom q.unitTo ∈ s.names) := by
  unfold convert at h
  simp only at h
  split at h
  · cases h
  · rename_i s rs' h1
    obtain ⟨rfl, rfl⟩ := Prod.mk.inj (Except.ok.inj h)
    obtain ⟨hn, hf⟩ := nameAll_named (l := qs) (n := 1)
    obtain ⟨i, p, f, r, v, c⟩ := constructAll_inv (s := ⟨[], [], (nameAll 1 qs).2⟩) ⟨List.nodup_nil, .refl _⟩ hn h1
    rw [hf] at f c
    refine ⟨s, rfl, i, ?_, f, r, v, c⟩
    intro x hx
    rcases p.added x hx with h | h
    · simp at h
    · exact h

omit [DecidableEq K] [Mul K] [One K] in
theorem names_perm {s : St K} (h : Inv [] s) {n : Str} : n ∈ s.names ↔ n ∈ s.params.map Param.name := by
  have := h.perm
  rw [List.nil_append] at this
  exact this.mem_iff.symm

/-- C38: no two parameters that are written have the same name. -/
theorem parameters_distinct {env : Env K} {qs : List (Quantity K)} {ps : List (Param K)}
    {rs : List (Quantity K × Option Str)} (h : convert env qs = .ok (ps, rs)) : (ps.map Param.name).Nodup := by
  obtain ⟨s, rfl, i, -⟩ := convert_inv h
  have := i.perm
  rw [List.nil_append] at this
  exact this.nodup_iff.2 i.nodup

/-- C38: every variable an exchange refers to is defined. -/
theorem references_defined {env : Env K} {qs : List (Quantity K)} {ps : List (Param K)}
    {rs : List (Quantity K × Option Str)} (h : convert env qs = .ok (ps, rs)) {q : Quantity K} {n : Str}
    (hm : (q, some n) ∈ rs) : n ∈ ps.map Param.name := by
  obtain ⟨s, rfl, i, -, -, r, -⟩ := convert_inv h
  exact (names_perm i).1 (r q n hm)

omit [DecidableEq K] [Mul K] [One K] in
theorem nameAll_mem : ∀ {qs : List (Quantity K)} {k : Nat} {q : Quantity K} {n : Str}, q ∈ qs → q.name = some n → n ≠ [] →
    ∃ m, (q, some (n, m)) ∈ (nameAll k qs).1
  | x :: qs, k, q, n, hm, hq, hn => by
    rcases List.mem_cons.1 hm with rfl | hm
    · refine ⟨q.math.map strip, ?_⟩
      have : varOf k q = some (n, q.math.map strip) := by
        unfold varOf
        cases n with
        | nil => exact absurd rfl hn
        | cons c t =>
          rw [hq]
          simp only [given]
      simp [nameAll, this]
    · obtain ⟨m, h⟩ := nameAll_mem (k := if (varOf k x).isSome then k + 1 else k) hm hq hn
      exact ⟨m, by simp [nameAll, h]⟩

/-- C38, where it holds: every variable of the source is defined, unless its name looks like one made by the
program and its amount changes the unit. -/
theorem variables_defined_partial {env : Env K} {qs : List (Quantity K)} {ps : List (Param K)}
    {rs : List (Quantity K × Option Str)} (h : convert env qs = .ok (ps, rs)) {q : Quantity K} {n : Str}
    (hm : q ∈ qs) (hq : q.name = some n) (hn : n ≠ []) (he : Converted q → eqName n = false) :
    n ∈ ps.map Param.name := by
  obtain ⟨s, rfl, i, -, -, -, v, -⟩ := convert_inv h
  obtain ⟨m, hmem⟩ := nameAll_mem (k := 1) hm hq hn
  exact (names_perm i).1 (v q n m hmem he)

/-- C38: the variable for the conversion of a unit is defined for every exchange that is converted. -/
theorem conversions_defined {env : Env K} {qs : List (Quantity K)} {ps : List (Param K)}
    {rs : List (Quantity K × Option Str)} (h : convert env qs = .ok (ps, rs)) {q : Quantity K}
    (hm : q ∈ qs) (hc : Converted q) : c!"__" ++ q.unitFrom ++ c!"_to_" ++ q.unitTo ++ c!"__" ∈ ps.map Param.name := by
  obtain ⟨s, rfl, i, -, -, -, -, c⟩ := convert_inv h
  exact (names_perm i).1 (c q hm hc)

/-- C65, where it holds: if there are values for the names with which all amounts agree under the names they
are given, then these are the values of the parameters, and the variable an exchange refers to has the
amount of the exchange. -/
theorem values_kept_partial {env : Env K} {qs : List (Quantity K)} {ps : List (Param K)}
    {rs : List (Quantity K × Option Str)} (h : convert env qs = .ok (ps, rs)) {val : Str → K} (ha : Agree val env rs) :
    (∀ p ∈ ps, p.value = val p.name) ∧
    ∀ q n, (q, some n) ∈ rs → ∃ p ∈ ps, p.name = n ∧ Refers q p.value := by
  have h0 := h
  obtain ⟨s, rfl, i, a, -, r, -⟩ := convert_inv h
  have hval : ∀ p ∈ s.params, p.value = val p.name := by
    intro p hp
    obtain ⟨q, r, hm, hc | ⟨hr, h1, h2⟩ | ⟨hq, hv⟩ | ⟨hc, hn, hv⟩⟩ := a p hp
    · obtain ⟨a, b, ua, ub, hc, hn⟩ := hc
      rw [hn, ha.units _ _ _ _ _ hc]
    · subst hr
      obtain ⟨g1, g2⟩ := ha.refs q p.name hm
      by_cases hc : Converted q
      · rw [h1 hc, g1 hc]
      · rw [h2 hc, g2 hc]
    · rw [hv, ha.names q r p.name hm hq]
    · rw [hv, hn, ha.factors q r hm hc]
  refine ⟨hval, fun q n hm => ?_⟩
  obtain ⟨p, hp, rfl⟩ := List.mem_map.1 ((names_perm i).1 (r q n hm))
  exact ⟨p, hp, rfl, hval p hp ▸ ha.refs q p.name hm⟩

/-- C65 fails for two amounts with the same variable name: one parameter is written, with the value of the
first; the second exchange refers to it all the same. -/
theorem same_name_first_value {env : Env K} {q1 q2 : Quantity K} {n : Str} (hn : n ≠ []) (h1 : q1.name = some n)
    (h2 : q2.name = some n) (m1 : q1.math = none) (m2 : q2.math = none) (c1 : ¬ Converted q1) (c2 : ¬ Converted q2) :
    convert env [q1, q2] = .ok ([⟨n, none, q1.value⟩], [(q1, some n), (q2, some n)]) := by
  have v1 : ∀ k, varOf k q1 = some (n, none) := by
    intro k
    cases n with
    | nil => exact absurd rfl hn
    | cons c t => simp [varOf, h1, m1, given]
  have v2 : ∀ k, varOf k q2 = some (n, none) := by
    intro k
    cases n with
    | nil => exact absurd rfl hn
    | cons c t => simp [varOf, h2, m2, given]
  unfold Converted at c1 c2
  simp only [convert, nameAll, v1, v2, constructAll, construct, c1, c2, if_false, create, given]
  simp

/-- The texts the corrections leave alone. -/
structure PlainMath (m : Str) : Prop where
  nonempty : m ≠ []
  units : isInfix c!"UnitConversion" m = false
  refs : isInfix c!"Ref(" m = false
  percent : '%' ∉ m
  comma : decimalComma m = false

omit [DecidableEq K] [Mul K] [One K] in
theorem create_plain {env : Env K} {s : St K} {n m : Str} {v : K} (hm : PlainMath m) (hn : n ∉ s.names) :
    create env s n (some m) v = .ok { s with names := s.names ++ [n], params := s.params ++ [⟨n, some m, v⟩] } := by
  have hg : given (some m) = some m := by
    cases m with
    | nil => exact absurd rfl hm.nonempty
    | cons c t => rfl
  have hf : fixOther m = m := plain_formula_kept hm.percent (by rw [← decimalComma_iff, hm.comma]; simp)
  have h1 : ∀ s0 : St K, fixUnits env s0 m = .ok (s0, m) := by
    intro s0; rw [fixUnits, hm.units]; rfl
  have h2 : fixRefs env m = .ok m := by rw [fixRefs, hm.refs]; rfl
  simp only [create, hn, if_false, hg, h1, h2, hf]

omit [DecidableEq K] [Mul K] [One K] in
/-- C67: a variable with a formula without references and conversions is written with the formula in which each
percent sign is a division by one hundred, when no comma stands between digits. -/
theorem formula_written {env : Env K} {s : St K} {n m : Str} {v : K} (hm : m ≠ [])
    (hu : isInfix c!"UnitConversion" m = false) (hr : isInfix c!"Ref(" m = false)
    (hc : decimalComma (m.flatMap fun x => if x = '%' then c!"/ 100" else [x]) = false) (hn : n ∉ s.names) :
    ∃ s', create env s n (some m) v = .ok s' ∧
      s'.params = s.params ++ [⟨n, some (m.flatMap fun x => if x = '%' then c!"/ 100" else [x]), v⟩] := by
  have hg : given (some m) = some m := by
    cases m with
    | nil => exact absurd rfl hm
    | cons c t => rfl
  have h1 : ∀ s0 : St K, fixUnits env s0 m = .ok (s0, m) := by
    intro s0; rw [fixUnits, hu]; rfl
  have h2 : fixRefs env m = .ok m := by rw [fixRefs, hr]; rfl
  exact ⟨{ s with names := s.names ++ [n], params := s.params ++ [⟨n, some (m.flatMap fun x => if x = '%' then c!"/ 100" else [x]), v⟩] },
    by simp only [create, hn, if_false, hg, h1, h2, percent_replaced hc], rfl⟩

omit [DecidableEq K] [One K] in
/-- C65 fails for elementary exchanges with a factor in the table of flows: the formula is that of the source,
but the value is multiplied by the factor. -/
theorem elementary_formula_unscaled [DecidableEq K] [One K] {env : Env K} {q : Quantity K} {n m : Str} {c : K} (hn : n ≠ [])
    (hq : q.name = some n) (hm : q.math = some m) (hs : strip m = m) (hp : PlainMath m) (hc : q.factor = 1) :
    convert env [elementary q c] = .ok ([⟨n, some m, q.value * c⟩], [(elementary q c, some n)]) := by
  have v1 : varOf 1 (elementary q c) = some (n, some m) := by
    cases n with
    | nil => exact absurd rfl hn
    | cons a t => simp [varOf, elementary, hq, hm, hs, given]
  have hf : ¬ ((elementary q c).factor ≠ 1 ∧ (elementary q c).kind = c!"flow") := by simp [elementary, hc]
  simp only [convert, nameAll, v1, constructAll, construct, hf, if_false]
  rw [create_plain hp (by simp)]
  simp [elementary]

/-- C39: an exchange whose amount is converted to another unit, with a variable and a formula: the variable
keeps its name, formula and value; a new variable holds the formula times the conversion, and the conversion
is defined. -/
theorem conversion_kept {env : Env K} {s : St K} {q : Quantity K} {n m : Str} (hc : Converted q)
    (he : eqName n = false) (hp : PlainMath m)
    (hp' : PlainMath (c!"(" ++ m ++ c!")*" ++ convStr q.unitFrom q.unitTo))
    (h1 : n ∉ s.names) (h2 : convertedName n (convStr q.unitFrom q.unitTo) ∉ s.names)
    (h3 : convStr q.unitFrom q.unitTo ∉ s.names) (h12 : n ≠ convertedName n (convStr q.unitFrom q.unitTo))
    (h13 : n ≠ convStr q.unitFrom q.unitTo)
    (h23 : convertedName n (convStr q.unitFrom q.unitTo) ≠ convStr q.unitFrom q.unitTo) :
    ∃ s', construct env s q (some (n, some m)) = .ok (s', some (convertedName n (convStr q.unitFrom q.unitTo))) ∧
      s'.params = s.params ++ [⟨n, some m, q.value⟩,
        ⟨convertedName n (convStr q.unitFrom q.unitTo), some (c!"(" ++ m ++ c!")*" ++ convStr q.unitFrom q.unitTo), q.value * q.factor⟩,
        ⟨convStr q.unitFrom q.unitTo, none, q.factor⟩] := by
  have hg : given (some m) = some m := by
    cases m with
    | nil => exact absurd rfl hp.nonempty
    | cons c t => rfl
  unfold Converted at hc
  have hcm : convertedMath (some m) (convStr q.unitFrom q.unitTo) =
      some (c!"(" ++ m ++ c!")*" ++ convStr q.unitFrom q.unitTo) := by
    simp only [convertedMath, hg, Option.map_some]
  rw [construct.eq_def]
  simp only [hc, he, hcm]
  rw [if_pos (by simp [hc]), create_plain hp h1]
  simp only [Bool.false_eq_true, if_false]
  rw [create_plain hp' (by simp [h2, Ne.symm h12])]
  simp only [define]
  rw [if_neg (by simp [h3, Ne.symm h13, Ne.symm h23])]
  exact ⟨_, rfl, by simp⟩

/-- C65 fails for a variable without a formula: after the conversion of its unit the new variable is a number
of its own; the connection with the variable is lost. -/
theorem conversion_link_lost {env : Env K} {q : Quantity K} {n : Str} (hc : Converted q) (hn : n ≠ [])
    (hq : q.name = some n) (hm : q.math = none) (he : eqName n = false)
    (h12 : n ≠ convertedName n (convStr q.unitFrom q.unitTo)) (h13 : n ≠ convStr q.unitFrom q.unitTo)
    (h23 : convertedName n (convStr q.unitFrom q.unitTo) ≠ convStr q.unitFrom q.unitTo) :
    convert env [q] = .ok ([⟨n, none, q.value⟩,
      ⟨convertedName n (convStr q.unitFrom q.unitTo), none, q.value * q.factor⟩,
      ⟨convStr q.unitFrom q.unitTo, none, q.factor⟩], [(q, some (convertedName n (convStr q.unitFrom q.unitTo)))]) := by
  have v1 : varOf 1 q = some (n, none) := by
    cases n with
    | nil => exact absurd rfl hn
    | cons a t => simp [varOf, hq, hm, given]
  unfold Converted at hc
  simp only [convert, nameAll, v1, constructAll, construct, hc, ne_eq, not_false_eq_true, and_self, if_true, he,
    create, given, convertedMath, define]
  simp [Ne.symm h12, Ne.symm h13, Ne.symm h23]

omit [DecidableEq K] [Mul K] [One K] in
/-- A name is taken for one made by the program if and only if `Eq_`, two small letters, `_` and a digit stand somewhere
in it. -/
theorem eqName_iff (n : Str) : eqName n = true ↔
    ∃ pre a b d post, n = pre ++ c!"Eq_" ++ [a, b, '_', d] ++ post ∧ isLower a = true ∧ isLower b = true ∧
      isDigit d = true := by
  induction n with
  | nil => simp [eqName]
  | cons c s ih =>
    rw [eqName, Bool.or_eq_true, ih]
    constructor
    · rintro (h | ⟨pre, a, b, d, post, rfl, h⟩)
      · split at h
        · rename_i a b d post e
          simp only [Bool.and_eq_true] at h
          exact ⟨[], a, b, d, post, by simpa using e, h.1.1, h.1.2, h.2⟩
        · cases h
      · exact ⟨c :: pre, a, b, d, post, rfl, h⟩
    · rintro ⟨pre, a, b, d, post, e, h1, h2, h3⟩
      cases pre with
      | nil =>
        left
        simp only [List.nil_append, List.cons_append] at e
        cases e
        simp [h1, h2, h3]
      | cons x pre =>
        right
        simp only [List.cons_append] at e
        cases e
        exact ⟨pre, a, b, d, post, by simp, h1, h2, h3⟩

/-- C38 fails for a variable whose name looks like one made by the program: if its amount changes the unit it
is not defined. -/
theorem eq_name_undefined {env : Env K} {q : Quantity K} {n : Str} (hc : Converted q) (hn : n ≠ [])
    (hq : q.name = some n) (hm : q.math = none) (he : eqName n = true)
    (h12 : n ≠ convertedName n (convStr q.unitFrom q.unitTo)) (h13 : n ≠ convStr q.unitFrom q.unitTo)
    (h23 : convertedName n (convStr q.unitFrom q.unitTo) ≠ convStr q.unitFrom q.unitTo) :
    ∃ ps rs, convert env [q] = .ok (ps, rs) ∧ n ∉ ps.map Param.name := by
  have v1 : varOf 1 q = some (n, none) := by
    cases n with
    | nil => exact absurd rfl hn
    | cons a t => simp [varOf, hq, hm, given]
  unfold Converted at hc
  refine ⟨[⟨convertedName n (convStr q.unitFrom q.unitTo), none, q.value * q.factor⟩,
    ⟨convStr q.unitFrom q.unitTo, none, q.factor⟩], [(q, some (convertedName n (convStr q.unitFrom q.unitTo)))], ?_, ?_⟩
  · simp only [convert, nameAll, v1, constructAll, construct, hc, ne_eq, not_false_eq_true, and_self, if_true, he,
      create, given, convertedMath, define]
    simp [Ne.symm h23]
  · simp [h12, h13]

omit [DecidableEq K] [Mul K] [One K] in
theorem beforeFrom_from : ∀ (n r : Str), (beforeFrom (n ++ (c!"__from_" ++ r))).length ≤ n.length
  | [], r => by
    have : startsWith c!"__from" ('_' :: (c!"_from_" ++ r)) = true := by simp [startsWith]
    rw [List.nil_append]
    show (beforeFrom ('_' :: (c!"_from_" ++ r))).length ≤ _
    rw [beforeFrom, if_pos this]
    simp
  | c :: n, r => by
    rw [List.cons_append, beforeFrom]
    split
    · simp
    · have := beforeFrom_from n r
      simp only [List.length_cons]
      omega

omit [DecidableEq K] [Mul K] [One K] in
/-- The names of converted variables keep to the limit of ILCD if those of the source have at most 46
characters. -/
theorem converted_name_limit {n conv : Str} (h : n.length ≤ 46) : (convertedName n conv).length ≤ 50 := by
  unfold convertedName
  simp only
  split
  · assumption
  · have := beforeFrom_from n (conv.drop 2)
    rw [List.append_assoc]
    simp only [List.length_append, List.length_cons, List.length_nil]
    omega

/-! ### Examples -/

/-- Surroundings for the examples. -/
def env0 : Env Int :=
  ⟨.ok, fun a b => if a = c!"kg" ∧ b = c!"g" then .ok (a, b, 1000) else .error .valueError,
    fun x => if x = c!"5" then some c!"5.0" else none, intStr,
    fun i => if i = c!"0a" then some (7, some 9) else if i = c!"0b" then some (3, none) else none⟩

/-- The hypotheses of `refs_replaced`, for `2*Ref('0a')+Ref('0a','ProductionVolume')+x`. -/
example : fixRefs env0 c!"2*Ref('0a')+Ref('0a','ProductionVolume')+x" = .ok c!"2*7+9+x" := by
  refine refs_replaced (env := env0) (l := [(c!"2*", c!"0a"), (c!"+", c!"0a','ProductionVolume")]) (last := c!"+x")
    (val := fun e => if e = c!"0a" then c!"7" else c!"9") ?_ ?_
  · intro p hp
    simp only [List.mem_cons, List.not_mem_nil, or_false] at hp
    rcases hp with rfl | rfl
    · exact ⟨⟨by decide, by decide, by decide⟩, .amount (env := env0) (i := c!"0a") (v := 7) (p := some 9) (by decide) (by decide)⟩
    · exact ⟨⟨by decide, by decide, by decide⟩,
        .volume (env := env0) (i := c!"0a") (sep := c!",") (v := 7) (p := 9) (by decide) (by decide) (by decide)⟩
  · decide

example : fixRefs env0 c!"Ref('0b','ProductionVolume')" = .ok c!"None" :=
  ref_none (env := env0) (i := c!"0b") (v := 3) ⟨by decide, by decide, by decide⟩ (by decide) (by decide)

example : fixRefs env0 c!"Ref('0c')" = .error .keyError :=
  ref_unknown (env := env0) (e := c!"0c") ⟨by decide, by decide, by decide⟩ (by decide) (by decide)

/-- The hypotheses of `units_replaced`. -/
example : ∃ s', fixUnits env0 ⟨[], [], 1⟩ c!"a*UnitConversion(5, 'kg', 'g')" = .ok (s', c!"a*(5.0*__kg_to_g__)") ∧
    c!"__kg_to_g__" ∈ s'.params.map Param.name := by
  obtain ⟨s', h1, -, h3⟩ := units_replaced (env := env0) (s := ⟨[], [], 1⟩) (l := [(c!"a*", c!"5, 'kg', 'g'")]) (last := [])
    (val := fun _ => c!"(5.0*__kg_to_g__)") (cname := fun _ => c!"__kg_to_g__") (fac := fun _ => 1000) (by
      intro p hp
      simp only [List.mem_cons, List.not_mem_nil, or_false] at hp
      subst hp
      exact ⟨⟨c!"5", c!"kg", c!"g"⟩, rfl, ⟨by decide, by decide, by decide, by decide, by decide⟩,
        c!"kg", c!"g", c!"kg", c!"g", rfl, rfl, rfl, rfl, c!"5.0", .number (by decide), by decide⟩) (by decide) ⟨List.nodup_nil, .refl _⟩
  exact ⟨s', h1, h3 _ (List.mem_singleton.2 rfl)⟩

/-- Two exchanges, one of them converted from `kg` to `g`, and a parameter; the hypotheses of
`values_kept_partial` are met. -/
example : convert env0 [⟨some c!"x", some c!"y*2", 6, c!"flow", 1000, c!"kg", c!"g"⟩, ⟨some c!"y", none, 3, c!"parameter", 1, [], []⟩,
      ⟨none, none, 5, c!"flow", 1000, c!"kg", c!"g"⟩] =
    .ok ([⟨c!"x", some c!"y*2", 6⟩, ⟨c!"x__from_kg_to_g__", some c!"(y*2)*__kg_to_g__", 6000⟩, ⟨c!"__kg_to_g__", none, 1000⟩,
      ⟨c!"y", none, 3⟩, ⟨c!"Eq_uv_4", some c!"5*__kg_to_g__", 5000⟩],
      [(⟨some c!"x", some c!"y*2", 6, c!"flow", 1000, c!"kg", c!"g"⟩, some c!"x__from_kg_to_g__"),
       (⟨some c!"y", none, 3, c!"parameter", 1, [], []⟩, some c!"y"),
       (⟨none, none, 5, c!"flow", 1000, c!"kg", c!"g"⟩, some c!"Eq_uv_4")]) := by decide +kernel

example : PlainMath c!"y*2" := ⟨by decide, by decide, by decide, by decide, by decide⟩

example : Converted (⟨some c!"Eq_ab_1", none, 6, c!"flow", 1000, c!"kg", c!"g"⟩ : Quantity Int) ∧ eqName c!"Eq_ab_1" = true ∧
    c!"Eq_ab_1" ≠ convertedName c!"Eq_ab_1" (convStr c!"kg" c!"g") ∧ c!"Eq_ab_1" ≠ convStr c!"kg" c!"g" ∧
    convertedName c!"Eq_ab_1" (convStr c!"kg" c!"g") ≠ convStr c!"kg" c!"g" := by
  refine ⟨⟨by decide, rfl⟩, by decide, by decide, by decide, by decide⟩

/-- `Agree` for the data set with one converted exchange. -/
example : ∃ val : Str → Int, Agree val env0 [(⟨some c!"x", none, 6, c!"flow", 1000, c!"kg", c!"g"⟩, some c!"x__from_kg_to_g__")] := by
  refine ⟨fun n => if n = c!"x" then 6 else if n = c!"x__from_kg_to_g__" then 6000 else 1000, ?_, ?_, ?_, ?_⟩
  · intro a b ua ub f h
    simp only [env0] at h
    split at h
    · rename_i hab
      obtain ⟨rfl, rfl, rfl⟩ := by simpa using h
      obtain ⟨rfl, rfl⟩ := hab
      rfl
    · cases h
  · intro q n hm
    simp only [List.mem_singleton, Prod.mk.injEq, Option.some.injEq] at hm
    obtain ⟨rfl, rfl⟩ := hm
    exact ⟨fun _ => rfl, fun h => absurd ⟨by decide, rfl⟩ h⟩
  · intro q r n hm hn
    simp only [List.mem_singleton, Prod.mk.injEq] at hm
    obtain ⟨rfl, rfl⟩ := hm
    obtain rfl := Option.some.inj hn
    rfl
  · intro q r hm _
    simp only [List.mem_singleton, Prod.mk.injEq] at hm
    obtain ⟨rfl, rfl⟩ := hm
    rfl

example : isInfix c!"UnitConversion" c!"5%*a" = false ∧ isInfix c!"Ref(" c!"5%*a" = false ∧
    decimalComma (c!"5%*a".flatMap fun x => if x = '%' then c!"/ 100" else [x]) = false ∧
    c!"5%*a".flatMap (fun x => if x = '%' then c!"/ 100" else [x]) = c!"5/ 100*a" := by decide

end Verif.EcsVars
