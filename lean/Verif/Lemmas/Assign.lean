/-
From the tables of assignments to the groups touched, the mandatory fields given and the single-valued
fields given twice by a whole conversion. The facts about the tables are Boolean checks.
-/
import Verif.Model.Assign
import Verif.Spec.Assign
import Verif.Lemmas.Fill
import Mathlib.Data.List.Infix
import Mathlib.Data.List.Nodup

namespace Verif.Assign

open Verif.DotDict Verif.Schema Verif.Mapping

variable {V R : Type}

/-- The group of a row. -/
def Row.path : Row → List Key
  | .read p => p
  | .set _ p _ _ => p

/-- The field a row assigns. -/
def Row.target : Row → Option (List Key × Key)
  | .read _ => none
  | .set _ p k _ => some (p, k)

/-- A row that always works. -/
def Row.always : Row → Bool
  | .read _ => true
  | .set c _ _ _ => c.isNone

/-- A row that works for an element. -/
def Row.on (e : Ev V R) : Row → Bool
  | .read _ => true
  | .set c _ _ _ => c.all e.has

theorem Row.on_of_always {e : Ev V R} {r : Row} (h : r.always = true) : r.on e = true := by
  cases r with
  | read => rfl
  | set c p k m =>
    cases c with
    | none => rfl
    | some c => cases h

/-- The rows outside the table that always work, from the second path on. -/
def Conv.fixed (t : Conv) : List Row := (t.start ++ t.first ++ t.last).filter Row.always

/-- All rows. -/
def Conv.all (t : Conv) : List Row := t.start ++ t.first ++ t.table.flatMap Prod.snd ++ t.last

theorem mem_rowOps {e : Ev V R} {r : Row} {op : Op V R} (h : op ∈ Row.ops e r) :
    op.path = r.path ∧ r.on e = true := by
  cases r with
  | read p => simp only [Row.ops, List.mem_singleton] at h; subst h; exact ⟨rfl, rfl⟩
  | set c p k m =>
    simp only [Row.ops] at h
    split at h
    · rename_i hc; simp only [List.mem_singleton] at h; subst h; exact ⟨rfl, hc⟩
    · cases h

theorem exists_rowOps {e : Ev V R} {r : Row} (h : r.on e = true) : ∃ op ∈ Row.ops e r, op.path = r.path := by
  cases r with
  | read p => exact ⟨.read p, by simp [Row.ops], rfl⟩
  | set c p k m =>
    have : c.all e.has = true := h
    exact ⟨.set p k (e.val p k :: if m then e.more p k else []), by simp [Row.ops, this], rfl⟩

theorem set_mem_rowOps {e : Ev V R} {r : Row} {p : List Key} {k : Key} {v : List (Arg V R)} :
    Op.set p k v ∈ Row.ops e r ↔ ∃ c m, r = .set c p k m ∧ c.all e.has = true ∧
      v = e.val p k :: if m then e.more p k else [] := by
  cases r with
  | read q => simp [Row.ops]
  | set c q k' m =>
    simp only [Row.ops]
    split
    · rename_i hc
      simp only [List.mem_singleton, Op.set.injEq, Row.set.injEq]
      constructor
      · rintro ⟨rfl, rfl, rfl⟩; exact ⟨c, m, ⟨rfl, rfl, rfl, rfl⟩, hc, rfl⟩
      · rintro ⟨c, m, ⟨rfl, rfl, rfl, rfl⟩, _, rfl⟩; exact ⟨rfl, rfl, rfl⟩
    · rename_i hc
      simp only [List.not_mem_nil, false_iff]
      rintro ⟨c', m', h, hc', _⟩
      cases h
      exact hc hc'

/-- The entry of a path is in the table. -/
theorem mem_rows {t : Conv} {k : MKey} {r : Row} (h : r ∈ t.rows k) :
    ∃ rs, (k, rs) ∈ t.table ∧ r ∈ rs := by
  rw [Conv.rows] at h
  cases hl : t.table.lookup k with
  | none => rw [hl] at h; cases h
  | some rs =>
    rw [hl] at h
    have hm : ∀ (l : List (MKey × List Row)), l.lookup k = some rs → (k, rs) ∈ l := by
      intro l
      induction l with
      | nil => intro h; cases h
      | cons x l ih =>
        intro h
        obtain ⟨a, b⟩ := x
        rw [List.lookup_cons] at h
        split at h
        · rename_i he
          cases h
          have := eq_of_beq he
          subst this
          simp
        · simp [ih h]
    exact ⟨rs, hm _ hl, h⟩

/-- Where an operation comes from. -/
theorem mem_ops {t : Conv} {first last : Ev V R} {es : List (Ev V R)} (hes : es ≠ []) {op : Op V R} :
    op ∈ t.ops first last es ↔ (∃ r ∈ t.start ++ t.first, op ∈ Row.ops first r) ∨
      (∃ e ∈ es, ∃ r ∈ t.rows e.key, op ∈ Row.ops e r) ∨ ∃ r ∈ t.last, op ∈ Row.ops last r := by
  have : es.isEmpty = false := by cases es; exact absurd rfl hes; rfl
  simp only [Conv.ops, this, List.mem_append, List.mem_flatMap, Bool.false_eq_true, if_false]
  constructor
  · rintro (((⟨r, h1, h2⟩ | ⟨r, h1, h2⟩) | h) | h)
    · exact .inl ⟨r, .inl h1, h2⟩
    · exact .inl ⟨r, .inr h1, h2⟩
    · exact .inr (.inl h)
    · exact .inr (.inr h)
  · rintro (⟨r, h1 | h1, h2⟩ | h | h)
    · exact .inl (.inl (.inl ⟨r, h1, h2⟩))
    · exact .inl (.inl (.inr ⟨r, h1, h2⟩))
    · exact .inl (.inr h)
    · exact .inr h

theorem mem_ops_all {t : Conv} {first last : Ev V R} {es : List (Ev V R)} {op : Op V R}
    (h : op ∈ t.ops first last es) : ∃ r ∈ t.all, ∃ e : Ev V R, op ∈ Row.ops e r := by
  simp only [Conv.ops, List.mem_append, List.mem_flatMap] at h
  simp only [Conv.all, List.mem_append, List.mem_flatMap]
  rcases h with ((⟨r, h1, h2⟩ | h) | ⟨e, _, r, h1, h2⟩) | ⟨r, h1, h2⟩
  · exact ⟨r, by simp [h1], _, h2⟩
  · split at h
    · cases h
    · rw [List.mem_flatMap] at h
      obtain ⟨r, h1, h2⟩ := h
      exact ⟨r, by simp [h1], _, h2⟩
  · obtain ⟨rs, h3, h4⟩ := mem_rows h1
    exact ⟨r, .inl (.inr ⟨_, h3, h4⟩), e, h2⟩
  · exact ⟨r, by simp [h1], _, h2⟩

/-! ### The checks on the tables -/

/-- Every row works on a group of the classes and assigns a known field under its own name. -/
def Conv.knownB (t : Conv) : Bool :=
  t.all.all fun r =>
    match classAt t.schema t.root r.path with
    | none => false
    | some c =>
      match r.target with
      | none => true
      | some (_, k) => (lookup k (t.schema c)).isSome && decide (normKey k = some k)

/-- No assigned field is a group of another row. -/
def Conv.clashB (t : Conv) : Bool :=
  t.all.all fun r =>
    match r.target with
    | none => true
    | some (p, k) => t.all.all fun r' => !(p ++ [k]).isPrefixOf r'.path

theorem fits_of_known {t : Conv} (hk : t.knownB = true) {O : Type} (vs : Validators Str V R O)
    (asRaw : Arg V R → R) (first last : Ev V R) (es : List (Ev V R))
    (hv : ValuesOk t vs asRaw (t.ops first last es)) :
    ∀ op ∈ t.ops first last es, Fits t.schema vs asRaw t.root op := by
  intro op hop
  obtain ⟨r, hr, e, hre⟩ := mem_ops_all hop
  rw [Conv.knownB, List.all_eq_true] at hk
  have h := hk r hr
  split at h
  · cases h
  · rename_i c hc
    obtain ⟨hp, _⟩ := mem_rowOps hre
    cases op with
    | read p => exact ⟨c, by rw [← hc, ← hp]; rfl⟩
    | set p k v =>
      obtain ⟨cd, m, rfl, _, _⟩ := set_mem_rowOps.1 hre
      simp only [Row.target, Bool.and_eq_true, decide_eq_true_eq] at h
      obtain ⟨f, hf⟩ := Option.isSome_iff_exists.1 h.1
      exact ⟨h.2, c, f, hc, hf, fun a ha => hv p k v hop c f hc hf a ha⟩

theorem noClash_of {t : Conv} (hc : t.clashB = true) (first last : Ev V R) (es : List (Ev V R)) :
    NoClash (t.ops first last es) := by
  intro p k v hop op' hop' hpre
  obtain ⟨r, hr, e, hre⟩ := mem_ops_all hop
  obtain ⟨r', hr', e', hre'⟩ := mem_ops_all hop'
  obtain ⟨cd, m, rfl, _, _⟩ := set_mem_rowOps.1 hre
  rw [Conv.clashB, List.all_eq_true] at hc
  have h := hc _ hr
  simp only [Row.target, List.all_eq_true, Bool.not_eq_true'] at h
  have h2 := h r' hr'
  rw [(mem_rowOps hre').1] at hpre
  rw [← Bool.not_eq_true, List.isPrefixOf_iff_prefix] at h2
  exact h2 hpre

/-! ### Mandatory fields -/

/-- The groups of the rows. -/
def Conv.groups (t : Conv) : List (List Key) := [] :: t.all.flatMap fun r => r.path.inits

/-- A field that is always there: assigned by a fixed row, or a group of one. -/
def Conv.fixedB (t : Conv) (p : List Key) (k : Key) : Bool :=
  t.fixed.any fun r => decide (r.target = some (p, k)) || (p ++ [k]).isPrefixOf r.path

/-- A group that is always there. -/
def Conv.sureB (t : Conv) (p : List Key) : Bool := p.isEmpty || t.fixed.any fun r => p.isPrefixOf r.path

/-- A mandatory field of a group. -/
def Conv.mandB (t : Conv) (p : List Key) (k : Key) : Bool :=
  match classAt t.schema t.root p with
  | none => false
  | some c => (t.schema c).any fun kf => decide (kf.1 = k) && kf.2.mandatory

/-- A group that is always there, or a mandatory group of one that is. -/
def Conv.upB (t : Conv) (p : List Key) : Bool :=
  t.sureB p || match p.getLast? with
    | none => false
    | some k => t.sureB p.dropLast && t.mandB p.dropLast k &&
        t.all.all fun r => decide (r.target ≠ some (p.dropLast, k))

/-- Every mandatory field of every group is always there, or one of the needs, or a group of one. -/
def Conv.coveredB (t : Conv) (needs : List Need) : Bool :=
  t.groups.all fun p =>
    match classAt t.schema t.root p with
    | none => true
    | some c => (t.schema c).all fun kf =>
        !kf.2.mandatory || t.fixedB p kf.1 || (needs.any fun n => decide (n.path = p ∧ n.key = kf.1)) ||
          needs.any fun n => (p ++ [kf.1]).isPrefixOf n.path

/-- A need is a mandatory field of a group that is always there, and is assigned by just the rows it
names. -/
def Conv.needB (t : Conv) (n : Need) : Bool :=
  t.upB n.path && t.mandB n.path n.key &&
  (t.all.all fun r => !(n.path ++ [n.key]).isPrefixOf r.path) &&
  ((t.start ++ t.first).all fun r => decide (r.target ≠ some (n.path, n.key))) &&
  (t.table.all fun kr => kr.2.all fun r =>
    match r with
    | .read _ => true
    | .set c p k _ => !decide (p = n.path ∧ k = n.key) || n.from_.any fun b => decide (b = (kr.1, c))) &&
  (n.from_.all fun b => (t.rows b.1).any fun r =>
    match r with
    | .read _ => false
    | .set c p k _ => decide (c = b.2 ∧ p = n.path ∧ k = n.key)) &&
  (t.last.all fun r =>
    match r with
    | .read _ => true
    | .set c p k _ => !decide (p = n.path ∧ k = n.key) || (match c with
        | none => false
        | some c => n.atEnd.any fun b => decide (b = c))) &&
  (n.atEnd.all fun b => t.last.any fun r =>
    match r with
    | .read _ => false
    | .set c p k _ => decide (c = some b ∧ p = n.path ∧ k = n.key))

theorem always_mem {t : Conv} {first last : Ev V R} {es : List (Ev V R)} (hes : es ≠ []) {r : Row}
    (hr : r ∈ t.fixed) : ∃ e : Ev V R, r.on e = true ∧ ∀ op ∈ Row.ops e r, op ∈ t.ops first last es := by
  rw [Conv.fixed, List.mem_filter, List.mem_append] at hr
  obtain ⟨hr | hr, ha⟩ := hr
  · exact ⟨first, Row.on_of_always ha, fun op hop => (mem_ops hes).2 (.inl ⟨r, hr, hop⟩)⟩
  · exact ⟨last, Row.on_of_always ha, fun op hop => (mem_ops hes).2 (.inr (.inr ⟨r, hr, hop⟩))⟩

theorem reached_mem_groups {t : Conv} {first last : Ev V R} {es : List (Ev V R)} {p : List Key}
    (h : Reached (t.ops first last es) p) : p ∈ t.groups := by
  rw [Conv.groups, List.mem_cons, List.mem_flatMap]
  rcases h with rfl | ⟨op, hop, hp⟩
  · exact .inl rfl
  · obtain ⟨r, hr, e, hre⟩ := mem_ops_all hop
    exact .inr ⟨r, hr, by rw [List.mem_inits, ← (mem_rowOps hre).1]; exact hp⟩

theorem given_of_fixed {t : Conv} {first last : Ev V R} {es : List (Ev V R)} (hes : es ≠ [])
    {p : List Key} {k : Key} (h : t.fixedB p k = true) : Given (t.ops first last es) p k := by
  rw [Conv.fixedB, List.any_eq_true] at h
  obtain ⟨r, hr, h⟩ := h
  obtain ⟨e, hon, hm⟩ := always_mem (first := first) (last := last) hes hr
  rw [Bool.or_eq_true, decide_eq_true_eq, List.isPrefixOf_iff_prefix] at h
  rcases h with h | h
  · left
    cases r with
    | read q => cases h
    | set c q k' m =>
      simp only [Row.target, Option.some.injEq, Prod.mk.injEq] at h
      obtain ⟨rfl, rfl⟩ := h
      exact ⟨_, hm _ (set_mem_rowOps.2 ⟨c, m, rfl, hon, rfl⟩), by simp⟩
  · right; right
    obtain ⟨op, hop, hp⟩ := exists_rowOps hon
    exact ⟨op, hm op hop, by rw [hp]; exact h⟩

theorem assigned_iff_need {t : Conv} {n : Need} (hn : t.needB n = true) {first last : Ev V R}
    {es : List (Ev V R)} (hes : es ≠ []) :
    Given (t.ops first last es) n.path n.key ↔ n.Met last es := by
  simp only [Conv.needB, Bool.and_eq_true] at hn
  obtain ⟨⟨⟨⟨⟨⟨⟨h1, h2⟩, h3⟩, h4⟩, h5⟩, h6⟩, h7⟩, h8⟩ := hn
  rw [List.all_eq_true] at h3 h4 h5 h6 h7 h8
  constructor
  · rintro (⟨v, hop, hv⟩ | hr)
    · rcases (mem_ops hes).1 hop with ⟨r, hr, hre⟩ | ⟨e, he, r, hr, hre⟩ | ⟨r, hr, hre⟩
      · obtain ⟨c, m, rfl, _, _⟩ := set_mem_rowOps.1 hre
        have := h4 _ hr
        simp [Row.target] at this
      · obtain ⟨c, m, rfl, hc, _⟩ := set_mem_rowOps.1 hre
        obtain ⟨rs, hrs, hrm⟩ := mem_rows hr
        have h := h5 _ hrs
        rw [List.all_eq_true] at h
        have h := h _ hrm
        simp only [true_and, decide_true, Bool.not_true, Bool.false_or, List.any_eq_true,
          decide_eq_true_eq, exists_eq_right] at h
        exact .inl ⟨_, h, e, he, rfl, hc⟩
      · obtain ⟨c, m, rfl, hc, _⟩ := set_mem_rowOps.1 hre
        have h := h7 _ hr
        simp only [true_and, decide_true, Bool.not_true, Bool.false_or] at h
        cases c with
        | none => cases h
        | some c =>
          simp only [List.any_eq_true, decide_eq_true_eq, exists_eq_right] at h
          exact .inr ⟨c, h, hc⟩
    · rcases hr with hr | ⟨op, hop, hp⟩
      · simp at hr
      · obtain ⟨r, hr, e, hre⟩ := mem_ops_all hop
        have := h3 r hr
        rw [Bool.not_eq_true', ← Bool.not_eq_true, List.isPrefixOf_iff_prefix, ← (mem_rowOps hre).1] at this
        exact absurd hp this
  · rintro (⟨b, hb, e, he, hk, hc⟩ | ⟨c, hc, hl⟩)
    · have h := h6 _ hb
      rw [List.any_eq_true] at h
      obtain ⟨r, hr, h⟩ := h
      cases r with
      | read q => cases h
      | set c p k m =>
        simp only [decide_eq_true_eq] at h
        obtain ⟨rfl, rfl, rfl⟩ := h
        rw [← hk] at hr
        exact .inl ⟨_, (mem_ops hes).2 (.inr (.inl ⟨e, he, _, hr, set_mem_rowOps.2 ⟨_, m, rfl, hc, rfl⟩⟩)), by simp⟩
    · have h := h8 _ hc
      rw [List.any_eq_true] at h
      obtain ⟨r, hr, h⟩ := h
      cases r with
      | read q => cases h
      | set c' p k m =>
        simp only [decide_eq_true_eq] at h
        obtain ⟨rfl, rfl, rfl⟩ := h
        exact .inl ⟨_, (mem_ops hes).2 (.inr (.inr ⟨_, hr, set_mem_rowOps.2 ⟨_, m, rfl, hl, rfl⟩⟩)), by simp⟩

theorem mandB_spec {t : Conv} {p : List Key} {k : Key} (h : t.mandB p k = true) :
    ∃ c f, classAt t.schema t.root p = some c ∧ (k, f) ∈ t.schema c ∧ f.mandatory = true := by
  rw [Conv.mandB] at h
  split at h
  · cases h
  · rename_i c hc
    rw [List.any_eq_true] at h
    obtain ⟨⟨k', f⟩, hkf, h⟩ := h
    simp only [Bool.and_eq_true, decide_eq_true_eq] at h
    obtain ⟨rfl, hm⟩ := h
    exact ⟨c, f, hc, hkf, hm⟩

theorem reached_of_sure {t : Conv} {first last : Ev V R} {es : List (Ev V R)} (hes : es ≠ [])
    {p : List Key} (h : t.sureB p = true) : Reached (t.ops first last es) p := by
  rw [Conv.sureB, Bool.or_eq_true, List.any_eq_true] at h
  rcases h with h | ⟨r, hr, h⟩
  · left; simpa using h
  · right
    obtain ⟨e, hon, hmm⟩ := always_mem (first := first) (last := last) hes hr
    obtain ⟨op, hop, hp⟩ := exists_rowOps hon
    exact ⟨op, hmm op hop, by rw [hp]; exact List.isPrefixOf_iff_prefix.1 h⟩

theorem reached_of_up {t : Conv} {first last : Ev V R} {es : List (Ev V R)} (hes : es ≠ [])
    (ha : AllMandatory t.schema t.root (t.ops first last es)) {p : List Key} (h : t.upB p = true) :
    Reached (t.ops first last es) p := by
  rw [Conv.upB, Bool.or_eq_true] at h
  rcases h with h | h
  · exact reached_of_sure hes h
  · split at h
    · cases h
    · rename_i k hk
      simp only [Bool.and_eq_true] at h
      obtain ⟨⟨h1, h2⟩, h3⟩ := h
      obtain ⟨c, f, hc, hkf, hm⟩ := mandB_spec h2
      have hp : p.dropLast ++ [k] = p := List.dropLast_append_getLast? k hk
      rcases ha p.dropLast c (reached_of_sure hes h1) hc k f hkf hm with ⟨v, hop, _⟩ | hr
      · obtain ⟨r, hr, e, hre⟩ := mem_ops_all hop
        obtain ⟨cd, m, rfl, _, _⟩ := set_mem_rowOps.1 hre
        rw [List.all_eq_true] at h3
        have := h3 _ hr
        simp [Row.target] at this
      · rw [hp] at hr; exact hr

/-- The mandatory fields are there just when the needs are met. -/
theorem mandatory_iff {t : Conv} {needs : List Need} (hcov : t.coveredB needs = true)
    (hneed : needs.all t.needB = true) {first last : Ev V R} {es : List (Ev V R)} (hes : es ≠ []) :
    AllMandatory t.schema t.root (t.ops first last es) ↔ ∀ n ∈ needs, n.Met last es := by
  rw [List.all_eq_true] at hneed
  constructor
  · intro h n hn
    have hnb := hneed n hn
    rw [← assigned_iff_need hnb hes]
    simp only [Conv.needB, Bool.and_eq_true] at hnb
    obtain ⟨⟨⟨⟨⟨⟨⟨h1, h2⟩, _⟩, _⟩, _⟩, _⟩, _⟩, _⟩ := hnb
    obtain ⟨c, f, hc, hkf, hm⟩ := mandB_spec h2
    exact h n.path c (reached_of_up hes h h1) hc n.key f hkf hm
  · intro h p c hp hc k f hkf hm
    rw [Conv.coveredB, List.all_eq_true] at hcov
    have h1 := hcov p (reached_mem_groups hp)
    rw [hc] at h1
    simp only [List.all_eq_true] at h1
    have h2 := h1 _ hkf
    simp only [hm, Bool.not_true, Bool.false_or, Bool.or_eq_true, List.any_eq_true,
      decide_eq_true_eq] at h2
    rcases h2 with (h2 | ⟨n, hn, rfl, rfl⟩) | ⟨n, hn, h2⟩
    · exact given_of_fixed hes h2
    · exact (assigned_iff_need (hneed n hn) hes).2 (h n hn)
    · rw [List.isPrefixOf_iff_prefix] at h2
      have := (assigned_iff_need (first := first) (hneed n hn) hes).2 (h n hn)
      right; right
      rcases this with ⟨v, hop, _⟩ | hr
      · exact ⟨_, hop, h2⟩
      · rcases hr with hr | ⟨op, hop, hp⟩
        · simp at hr
        · exact ⟨op, hop, h2.trans ((List.prefix_append _ _).trans hp)⟩

/-! ### Single-valued fields -/

/-- A row that assigns a single-valued field. -/
def Conv.singleB (t : Conv) (r : Row) : Bool :=
  match r.target with
  | none => false
  | some (p, k) =>
    match classAt t.schema t.root p with
    | none => false
    | some c =>
      match lookup k (t.schema c) with
      | none => false
      | some f => f.unique

/-- The single-valued fields assigned by a row. -/
def Conv.rowSingles (t : Conv) (e : Ev V R) (r : Row) : List (List Key × Key) :=
  (Row.ops e r).flatMap (singles t.schema t.root)

theorem rowSingles_eq (t : Conv) (e : Ev V R) (r : Row) :
    t.rowSingles e r = match r with
      | .read _ => []
      | .set c p k m => if t.singleB (.set c p k m) && c.all e.has then
          List.replicate (1 + if m then (e.more p k).length else 0) (p, k) else [] := by
  cases r with
  | read p => simp [Conv.rowSingles, Row.ops, singles]
  | set c p k m =>
    simp only [Conv.rowSingles, Row.ops, Conv.singleB, Row.target]
    by_cases h : c.all e.has = true
    · simp only [h, if_true, List.flatMap_cons, List.flatMap_nil, List.append_nil, singles, Bool.and_true]
      cases classAt t.schema t.root p with
      | none => simp
      | some c' =>
        obtain ⟨o, ho⟩ : ∃ o, lookup k (t.schema c') = o := ⟨_, rfl⟩
        simp only [ho]
        cases o with
        | none => simp
        | some f => cases hu : f.unique <;> cases m <;> simp [Nat.add_comm, hu]
    · simp [h]

theorem mem_rowSingles {t : Conv} {e : Ev V R} {r : Row} {x : List Key × Key} :
    x ∈ t.rowSingles e r ↔ t.singleB r = true ∧ r.target = some x ∧ r.on e = true := by
  rw [rowSingles_eq]
  cases r with
  | read p => simp [Conv.singleB, Row.target]
  | set c p k m =>
    simp only [Row.target, Row.on, Option.some.injEq]
    split
    · rename_i h
      rw [Bool.and_eq_true] at h
      rw [List.mem_replicate]
      constructor
      · rintro ⟨_, rfl⟩; exact ⟨h.1, rfl, h.2⟩
      · rintro ⟨_, rfl, _⟩; exact ⟨by omega, rfl⟩
    · rename_i h
      simp only [List.not_mem_nil, false_iff]
      rintro ⟨h1, _, h2⟩
      exact h (by simp [h1, h2])

/-- The single-valued fields assigned for an element. -/
def Conv.evSingles (t : Conv) (e : Ev V R) : List (List Key × Key) :=
  (t.rows e.key).flatMap (t.rowSingles e)

/-- The rows outside the table. -/
def Conv.outer (t : Conv) : List Row := t.start ++ t.first ++ t.last

/-- No two of the rows assign the same single-valued field. -/
def Conv.distinctB (t : Conv) (rs : List Row) : Bool :=
  decide (rs.Pairwise fun r r' => ¬ (t.singleB r = true ∧ t.singleB r' = true ∧ r.target = r'.target))

/-- A row assigns at most one value. -/
def Row.plainB : Row → Bool
  | .read _ => true
  | .set _ _ _ m => !m

/-- The checks on single-valued fields. -/
def Conv.singlesB (t : Conv) (ss : List Single) (ms : List Several) : Bool :=
  t.distinctB t.outer &&
  (t.outer.all fun r => !t.singleB r || r.plainB) &&
  (t.outer.all fun r => !t.singleB r || t.table.all fun kr => kr.2.all fun r' =>
    !t.singleB r' || decide (r.target ≠ r'.target)) &&
  (t.table.all fun kr => t.distinctB kr.2) &&
  (t.table.all fun kr => kr.2.all fun r =>
    match r with
    | .read _ => true
    | .set c p k m => !t.singleB r ||
        ((ss.any fun s => decide (s.path = p ∧ s.key = k) && s.from_.any fun b => decide (b = (kr.1, c))) &&
          (!m || ms.any fun x => decide (x.at_ = (kr.1, c) ∧ x.path = p ∧ x.key = k)))) &&
  (ss.all fun s => s.from_.all fun b => (t.rows b.1).any fun r =>
    match r with
    | .read _ => false
    | .set c p k _ => t.singleB r && decide (c = b.2 ∧ p = s.path ∧ k = s.key)) &&
  (ms.all fun x => (t.rows x.at_.1).any fun r =>
    match r with
    | .read _ => false
    | .set c p k m => t.singleB r && m && decide (c = x.at_.2 ∧ p = x.path ∧ k = x.key)) &&
  decide ((ss.map fun s => (s.path, s.key)).Nodup)

theorem rows_checked {t : Conv} {P : MKey → Row → Bool}
    (h : (t.table.all fun kr => kr.2.all fun r => P kr.1 r) = true) {k : MKey} {r : Row}
    (hr : r ∈ t.rows k) : P k r = true := by
  obtain ⟨rs, h1, h2⟩ := mem_rows hr
  rw [List.all_eq_true] at h
  have := h _ h1
  rw [List.all_eq_true] at this
  exact this _ h2

theorem rows_distinct {t : Conv} (h : (t.table.all fun kr => t.distinctB kr.2) = true) (k : MKey) :
    t.distinctB (t.rows k) = true := by
  rw [Conv.rows]
  cases hl : t.table.lookup k with
  | none => simp [Conv.distinctB]
  | some rs =>
    have hm : ∀ (l : List (MKey × List Row)), l.lookup k = some rs → ∃ k', (k', rs) ∈ l := by
      intro l
      induction l with
      | nil => intro h; cases h
      | cons x l ih =>
        intro h
        obtain ⟨a, b⟩ := x
        rw [List.lookup_cons] at h
        split at h
        · cases h; exact ⟨a, by simp⟩
        · obtain ⟨k', h'⟩ := ih h; exact ⟨k', by simp [h']⟩
    obtain ⟨k', hk⟩ := hm _ hl
    rw [List.all_eq_true] at h
    exact h _ hk

theorem nodup_rowsSingles {t : Conv} {rs : List Row} (hd : t.distinctB rs = true) (e : Ev V R) :
    (rs.flatMap (t.rowSingles e)).Nodup ↔ ∀ r ∈ rs, (t.rowSingles e r).Nodup := by
  rw [List.nodup_flatMap]
  constructor
  · exact fun h => h.1
  · intro h
    refine ⟨h, ?_⟩
    rw [Conv.distinctB, decide_eq_true_eq] at hd
    refine hd.imp ?_
    intro r r' hne x h1 h2
    rw [mem_rowSingles] at h1 h2
    exact hne ⟨h1.1, h2.1, h1.2.1.trans h2.2.1.symm⟩

theorem mem_evSingles {t : Conv} {ss : List Single} {ms : List Several} (hs : t.singlesB ss ms = true)
    {e : Ev V R} {x : List Key × Key} :
    x ∈ t.evSingles e ↔ ∃ s ∈ ss, x = (s.path, s.key) ∧ s.By e := by
  simp only [Conv.singlesB, Bool.and_eq_true] at hs
  obtain ⟨⟨⟨⟨⟨⟨⟨_, _⟩, _⟩, _⟩, h5⟩, h6⟩, _⟩, _⟩ := hs
  rw [Conv.evSingles, List.mem_flatMap]
  constructor
  · rintro ⟨r, hr, hx⟩
    rw [mem_rowSingles] at hx
    obtain ⟨h1, h2, h3⟩ := hx
    have h := rows_checked (P := fun k r => match r with
      | .read _ => true
      | .set c p k' m => !t.singleB r ||
        ((ss.any fun s => decide (s.path = p ∧ s.key = k') && s.from_.any fun b => decide (b = (k, c))) &&
          (!m || ms.any fun x => decide (x.at_ = (k, c) ∧ x.path = p ∧ x.key = k')))) h5 hr
    cases r with
    | read q => cases h2
    | set c p k m =>
      simp only [h1, Bool.not_true, Bool.false_or, Bool.and_eq_true, List.any_eq_true, decide_eq_true_eq,
        exists_eq_right] at h
      obtain ⟨⟨s, hs, ⟨hp, hk⟩, hb⟩, _⟩ := h
      refine ⟨s, hs, ?_, _, hb, rfl, h3⟩
      rw [hp, hk]
      simpa [Row.target] using h2.symm
  · rintro ⟨s, hs, rfl, b, hb, hk, hc⟩
    rw [List.all_eq_true] at h6
    have h := h6 s hs
    rw [List.all_eq_true] at h
    have h := h b hb
    rw [List.any_eq_true] at h
    obtain ⟨r, hr, h⟩ := h
    cases r with
    | read q => cases h
    | set c p k m =>
      simp only [Bool.and_eq_true, decide_eq_true_eq] at h
      obtain ⟨h1, rfl, rfl, rfl⟩ := h
      exact ⟨_, by rw [hk]; exact hr, mem_rowSingles.2 ⟨h1, rfl, hc⟩⟩

theorem nodup_evSingles {t : Conv} {ss : List Single} {ms : List Several} (hs : t.singlesB ss ms = true)
    {e : Ev V R} : (t.evSingles e).Nodup ↔ ∀ x ∈ ms, x.One e := by
  have hs0 := hs
  simp only [Conv.singlesB, Bool.and_eq_true] at hs
  obtain ⟨⟨⟨⟨⟨⟨⟨_, _⟩, _⟩, h4⟩, h5⟩, _⟩, h7⟩, _⟩ := hs
  rw [Conv.evSingles, nodup_rowsSingles (rows_distinct h4 e.key)]
  constructor
  · rintro h x hx ⟨hk, hc⟩
    rw [List.all_eq_true] at h7
    have h' := h7 x hx
    rw [List.any_eq_true] at h'
    obtain ⟨r, hr, h'⟩ := h'
    cases r with
    | read q => cases h'
    | set c p k m =>
      simp only [Bool.and_eq_true, decide_eq_true_eq] at h'
      obtain ⟨⟨h1, rfl⟩, rfl, rfl, rfl⟩ := h'
      have := h _ (by rw [hk]; exact hr)
      rw [rowSingles_eq] at this
      simp only [h1, hc, Bool.and_self, if_true, List.nodup_replicate] at this
      exact List.length_eq_zero_iff.1 (by omega)
  · intro h r hr
    have h' := rows_checked (P := fun k r => match r with
      | .read _ => true
      | .set c p k' m => !t.singleB r ||
        ((ss.any fun s => decide (s.path = p ∧ s.key = k') && s.from_.any fun b => decide (b = (k, c))) &&
          (!m || ms.any fun x => decide (x.at_ = (k, c) ∧ x.path = p ∧ x.key = k')))) h5 hr
    rw [rowSingles_eq]
    cases r with
    | read q => simp
    | set c p k m =>
      simp only
      split
      · rename_i hc
        rw [Bool.and_eq_true] at hc
        rw [List.nodup_replicate]
        simp only [hc.1, Bool.not_true, Bool.false_or, Bool.and_eq_true, List.any_eq_true,
          decide_eq_true_eq] at h'
        cases m with
        | false => simp
        | true =>
          simp only [Bool.not_true, Bool.false_or, List.any_eq_true, decide_eq_true_eq] at h'
          obtain ⟨_, x, hx, ha, rfl, rfl⟩ := h'
          have := h x hx ⟨by rw [ha], by rw [ha]; exact hc.2⟩
          simp [this]
      · simp

/-- No single-valued field is given twice just when no two elements give one. -/
theorem onceEach_iff {t : Conv} {ss : List Single} {ms : List Several} (hs : t.singlesB ss ms = true)
    {first last : Ev V R} {es : List (Ev V R)} (hes : es ≠ []) :
    OnceEach t.schema t.root (t.ops first last es) ↔
      (es.Pairwise fun e e' => ∀ s ∈ ss, ¬ (s.By e ∧ s.By e')) ∧ ∀ e ∈ es, ∀ x ∈ ms, x.One e := by
  have hs0 := hs
  simp only [Conv.singlesB, Bool.and_eq_true] at hs
  obtain ⟨⟨⟨⟨⟨⟨⟨h1, h2⟩, h3⟩, _⟩, _⟩, _⟩, _⟩, h8⟩ := hs
  have he : es.isEmpty = false := by cases es; exact absurd rfl hes; rfl
  -- the list of single-valued fields
  have hlist : (t.ops first last es).flatMap (singles t.schema t.root) =
      ((t.start ++ t.first).flatMap (t.rowSingles first) ++ es.flatMap t.evSingles) ++
        t.last.flatMap (t.rowSingles last) := by
    simp only [Conv.ops, he, Bool.false_eq_true, if_false, List.flatMap_append, List.flatMap_assoc]
    rfl
  have hperm : (((t.start ++ t.first).flatMap (t.rowSingles first) ++ es.flatMap t.evSingles) ++
      t.last.flatMap (t.rowSingles last)).Perm
      (((t.start ++ t.first).flatMap (t.rowSingles first) ++ t.last.flatMap (t.rowSingles last)) ++
        es.flatMap t.evSingles) := by
    rw [List.append_assoc, List.append_assoc]
    exact List.Perm.append_left _ List.perm_append_comm
  have hmemO : ∀ x, x ∈ (t.start ++ t.first).flatMap (t.rowSingles first) ++ t.last.flatMap (t.rowSingles last) →
      ∃ r ∈ t.outer, t.singleB r = true ∧ r.target = some x := by
    intro x hx
    rw [List.mem_append, List.mem_flatMap, List.mem_flatMap] at hx
    rcases hx with ⟨r, hr, hx⟩ | ⟨r, hr, hx⟩
    · rw [mem_rowSingles] at hx
      exact ⟨r, by rw [Conv.outer]; exact List.mem_append_left _ hr, hx.1, hx.2.1⟩
    · rw [mem_rowSingles] at hx
      exact ⟨r, by rw [Conv.outer]; exact List.mem_append_right _ hr, hx.1, hx.2.1⟩
  have hplain : ∀ (e : Ev V R), ∀ r ∈ t.outer, (t.rowSingles e r).Nodup := by
    intro e r hr
    rw [List.all_eq_true] at h2
    have h := h2 r hr
    rw [rowSingles_eq]
    cases r with
    | read q => simp
    | set c p k m =>
      simp only
      split
      · rename_i hc
        rw [Bool.and_eq_true] at hc
        simp only [hc.1, Bool.not_true, Bool.false_or, Row.plainB, Bool.not_eq_true'] at h
        subst h
        simp
      · simp
  have houter : ((t.start ++ t.first).flatMap (t.rowSingles first) ++
      t.last.flatMap (t.rowSingles last)).Nodup := by
    have hd := h1
    rw [Conv.distinctB, decide_eq_true_eq, Conv.outer, List.pairwise_append] at hd
    rw [List.nodup_append']
    refine ⟨?_, ?_, ?_⟩
    · rw [nodup_rowsSingles (by rw [Conv.distinctB, decide_eq_true_eq]; exact hd.1)]
      exact fun r hr => hplain _ r (by rw [Conv.outer]; exact List.mem_append_left _ hr)
    · rw [nodup_rowsSingles (by rw [Conv.distinctB, decide_eq_true_eq]; exact hd.2.1)]
      exact fun r hr => hplain _ r (by rw [Conv.outer]; exact List.mem_append_right _ hr)
    · intro x hx hx'
      rw [List.mem_flatMap] at hx hx'
      obtain ⟨r, hr, hx⟩ := hx
      obtain ⟨r', hr', hx'⟩ := hx'
      rw [mem_rowSingles] at hx hx'
      exact hd.2.2 r hr r' hr' ⟨hx.1, hx'.1, hx.2.1.trans hx'.2.1.symm⟩
  have hdis : List.Disjoint ((t.start ++ t.first).flatMap (t.rowSingles first) ++
      t.last.flatMap (t.rowSingles last)) (es.flatMap t.evSingles) := by
    intro x hx hx'
    obtain ⟨r, hr, hsr, htr⟩ := hmemO x hx
    rw [List.mem_flatMap] at hx'
    obtain ⟨e, _, hx'⟩ := hx'
    rw [Conv.evSingles, List.mem_flatMap] at hx'
    obtain ⟨r', hr', hx'⟩ := hx'
    rw [mem_rowSingles] at hx'
    rw [List.all_eq_true] at h3
    have h := h3 r hr
    rw [hsr, Bool.not_true, Bool.false_or] at h
    have h := rows_checked (P := fun _ r' => !t.singleB r' || decide (r.target ≠ r'.target)) h hr'
    rw [hx'.1, Bool.not_true, Bool.false_or, decide_eq_true_eq] at h
    exact h (htr.trans hx'.2.1.symm)
  rw [OnceEach, hlist, hperm.nodup_iff, List.nodup_append']
  have hM : (es.flatMap t.evSingles).Nodup ↔
      (es.Pairwise fun e e' => ∀ s ∈ ss, ¬ (s.By e ∧ s.By e')) ∧ ∀ e ∈ es, ∀ x ∈ ms, x.One e := by
    rw [List.nodup_flatMap, and_comm]
    refine and_congr ?_ ?_
    · constructor
      · intro h
        refine h.imp ?_
        rintro e e' h s hs ⟨hb, hb'⟩
        exact h (mem_evSingles hs0 |>.2 ⟨s, hs, rfl, hb⟩) (mem_evSingles hs0 |>.2 ⟨s, hs, rfl, hb'⟩)
      · intro h
        refine h.imp ?_
        intro e e' h x hx hx'
        obtain ⟨s, hs, rfl, hb⟩ := (mem_evSingles hs0).1 hx
        obtain ⟨s', hs', heq, hb'⟩ := (mem_evSingles hs0).1 hx'
        rw [decide_eq_true_eq] at h8
        have := List.inj_on_of_nodup_map h8 hs hs' heq
        subst this
        exact h s hs ⟨hb, hb'⟩
    · exact forall₂_congr fun e _ => nodup_evSingles hs0
  rw [← hM]
  exact ⟨fun h => h.2.1, fun h => ⟨houter, h, hdis⟩⟩

end Verif.Assign
