import Verif.Spec.Classes
import Verif.Lemmas.Py
import Verif.Lemmas.EcsVars
import Verif.Lemmas.IlcdVars
import Verif.Lemmas.Assoc
import Mathlib.Data.List.Forall2
import Mathlib.Tactic.ByContra

/-!
C108: the classes of the source are written as the mapping gives them.
C109: the classes written are those of the file they refer to.
C110: the classifications and their order.
-/

namespace Verif.Classes

open Verif.Classes.Spec

theorem splitOn_free {c : Char} : ∀ {s p : Str}, p ∈ splitOn c s → c ∉ p
  | [], p, h => by simp [splitOn] at h; simp [h]
  | d :: s, p, h => by
    by_cases hd : d = c
    · rw [splitOn, if_pos hd] at h
      rcases List.mem_cons.1 h with rfl | h
      · simp
      · exact splitOn_free h
    · rw [splitOn, if_neg hd] at h
      have ih := fun q (hq : q ∈ splitOn c s) => splitOn_free hq
      cases hs : splitOn c s with
      | nil => exact absurd hs (splitOn_ne_nil _ _)
      | cons a l =>
        rw [hs] at h
        rcases List.mem_cons.1 h with rfl | h
        · simp only [List.mem_cons, not_or]
          exact ⟨Ne.symm hd, ih a (by simp [hs])⟩
        · exact ih p (by simp [hs, h])

theorem splitOn_count {c : Char} : ∀ (s : Str), (splitOn c s).length = s.count c + 1
  | [] => rfl
  | d :: s => by
    by_cases hd : d = c
    · rw [splitOn, if_pos hd, List.length_cons, splitOn_count s, hd, List.count_cons_self]
    · rw [splitOn, if_neg hd, List.count_cons_of_ne hd]
      have ih := splitOn_count (c := c) s
      cases hs : splitOn c s with
      | nil => exact absurd hs (splitOn_ne_nil _ _)
      | cons a l => rw [hs] at ih; simpa using ih

private theorem join_cons {sep x : Str} {l : List Str} (h : l ≠ []) : join sep (x :: l) = x ++ sep ++ join sep l := by
  cases l with
  | nil => exact absurd rfl h
  | cons y l => rfl

private theorem join_head {sep a : Str} {d : Char} {l : List Str} : join sep ((d :: a) :: l) = d :: join sep (a :: l) := by
  cases l <;> rfl

/-- The first parts of a text that is cut at a character. -/
theorem take_parts {c : Char} : ∀ (n : Nat) (s : Str),
    (∃ rest, s = join [c] ((splitOn c s).take (n + 1)) ++ c :: rest ∧
      (join [c] ((splitOn c s).take (n + 1))).count c = n) ∨
    (join [c] ((splitOn c s).take (n + 1)) = s ∧ s.count c ≤ n)
  | n, [] => by right; simp [splitOn, join]
  | n, d :: s => by
    by_cases hd : d = c
    · subst hd
      rw [splitOn, if_pos rfl, List.take_succ_cons]
      cases n with
      | zero => left; exact ⟨s, by simp [join]⟩
      | succ m =>
        have hne : (splitOn d s).take (m + 1) ≠ [] := by
          cases h : splitOn d s with
          | nil => exact absurd h (splitOn_ne_nil _ _)
          | cons a l => simp
        rw [join_cons hne]
        rcases take_parts (c := d) m s with ⟨rest, h1, h2⟩ | ⟨h1, h2⟩
        · left
          refine ⟨rest, ?_, ?_⟩
          · conv_lhs => rw [h1]
            simp
          · simp [h2]
        · right
          exact ⟨by simp [h1], by simpa using h2⟩
    · rw [splitOn, if_neg hd]
      have ih := take_parts (c := c) n s
      cases hs : splitOn c s with
      | nil => exact absurd hs (splitOn_ne_nil _ _)
      | cons a l =>
        rw [hs, List.take_succ_cons] at ih
        simp only [List.take_succ_cons, join_head]
        rcases ih with ⟨rest, h1, h2⟩ | ⟨h1, h2⟩
        · left
          refine ⟨rest, ?_, ?_⟩
          · conv_lhs => rw [h1]
            simp
          · rw [List.count_cons_of_ne hd, h2]
        · right
          exact ⟨by rw [h1], by rw [List.count_cons_of_ne hd]; exact h2⟩

/-! ## The classes of a row -/

theorem levels_length (r : Row) : (levels r).length = r.cls.count '/' + 1 := by
  rw [levels, List.length_mapIdx, splitOn_count]

/-- The classes made from a row. -/
private def pathOf (r : Row) : List Class := (levels r).mapIdx fun i p => ⟨i, p.1, p.2⟩

private theorem pathOf_get {r : Row} {i : Nat} {k : Class} : (pathOf r)[i]? = some k ↔
    ∃ l, (splitOn '/' r.cls)[i]? = some l ∧ k = ⟨i, join c!"." ((splitOn '.' r.clsId).take (i + 1)), l⟩ := by
  unfold pathOf levels
  rw [List.mapIdx_mapIdx, List.getElem?_mapIdx, Option.map_eq_some_iff]
  exact ⟨fun ⟨l, h, e⟩ => ⟨l, h, e.symm⟩, fun ⟨l, h, e⟩ => ⟨l, h, e.symm⟩⟩

private theorem pathOf_texts (r : Row) : (pathOf r).map (fun k => k.text) = splitOn '/' r.cls := by
  apply List.ext_getElem?
  intro i
  rw [List.getElem?_map]
  cases h : (pathOf r)[i]? with
  | none =>
    have : (splitOn '/' r.cls)[i]? = none := by
      by_contra hn
      obtain ⟨l, hl⟩ := Option.ne_none_iff_exists'.1 hn
      rw [pathOf_get.2 ⟨l, hl, rfl⟩] at h
      cases h
    rw [this]; rfl
  | some k =>
    obtain ⟨l, hl, rfl⟩ := pathOf_get.1 h
    rw [hl]; rfl

private theorem path_of_row (r : Row) : Path r.cls (pathOf r) where
  ne h := by
    have := congrArg List.length (pathOf_texts r)
    rw [h, splitOn_count] at this
    simp at this
  level i k h := by obtain ⟨l, _, rfl⟩ := pathOf_get.1 h; rfl
  names := by rw [pathOf_texts]; exact join_splitOn '/' r.cls
  single k hk := by
    have : k.text ∈ splitOn '/' r.cls := by rw [← pathOf_texts]; exact List.mem_map_of_mem hk
    exact splitOn_free this

/-- Names without "/" are found again in the text put together from them. -/
private theorem split_join {c : Char} : ∀ {l : List Str}, l ≠ [] → (∀ x ∈ l, c ∉ x) → splitOn c (join [c] l) = l
  | [], h, _ => absurd rfl h
  | [x], _, h => EcsVars.splitOn_none (h x (by simp))
  | x :: y :: l, _, h => by
    rw [join_cons (by simp), List.append_assoc]
    change splitOn c (x ++ c :: join [c] (y :: l)) = _
    rw [EcsVars.splitOn_cons (h x (by simp)), split_join (by simp) fun z hz => h z (List.mem_cons_of_mem _ hz)]

/-- The part of an identifier up to a number is determined. -/
private theorem idPart_unique {n : Nat} {i j full : Str} (hi : IdPart n i full) (hj : IdPart n j full) : i = j := by
  have big : ∀ {k rest : Str}, full = k ++ '.' :: rest → k.count '.' = n → ¬ full.count '.' ≤ n := by
    intro k rest e hk
    rw [e, List.count_append, List.count_cons_self]
    omega
  rcases hi with ⟨r1, e1, c1⟩ | ⟨e1, c1⟩ <;> rcases hj with ⟨r2, e2, c2⟩ | ⟨e2, c2⟩
  · rw [e1] at e2
    rcases List.append_eq_append_iff.1 e2 with ⟨a, ha, hb⟩ | ⟨a, ha, hb⟩
    · cases a with
      | nil => simpa using ha.symm
      | cons x a =>
        injection hb with hx _
        subst hx
        rw [ha, List.count_append, List.count_cons_self] at c2
        omega
    · cases a with
      | nil => simpa using ha
      | cons x a =>
        injection hb with hx _
        subst hx
        rw [ha, List.count_append, List.count_cons_self] at c1
        omega
  · exact absurd c2 (big e1 c1)
  · exact absurd c1 (big e2 c2)
  · rw [e1, e2]

/-- **C108.** A class of the mapping with at most ten levels is written in full: the names one by one, numbered
from 0, and no other classes; the identifier on level `i` is the part of the identifier of the class up to its
`i + 1`-th number. -/
theorem class_written {m : Mapping} {id value : Str} {r : Row} (h : aget id m = some r)
    (hn : r.cls.count '/' < 10) (path : List Class) :
    classesOf m id value = .ok path ↔
      Path r.cls path ∧ ∀ i (k : Class), path[i]? = some k → IdPart i k.id r.clsId := by
  have e : classesOf m id value = .ok (pathOf r) := by
    simp only [classesOf, rowOf, h]
    rw [if_pos (by rw [levels_length]; omega)]
    rfl
  have hid : ∀ i (k : Class), (pathOf r)[i]? = some k → IdPart i k.id r.clsId := by
    intro i k hk
    obtain ⟨l, _, rfl⟩ := pathOf_get.1 hk
    rcases take_parts (c := '.') i r.clsId with ⟨rest, h1, h2⟩ | ⟨h1, h2⟩
    · exact .inl ⟨rest, h1, h2⟩
    · exact .inr ⟨h1, h2⟩
  rw [e]
  constructor
  · intro h
    injection h with h
    subst h
    exact ⟨path_of_row r, hid⟩
  · rintro ⟨hp, hi⟩
    have ht : path.map (fun k => k.text) = splitOn '/' r.cls := by
      have := split_join (c := '/') (l := path.map fun k => k.text) (by simpa using hp.ne) (by
        intro x hx
        obtain ⟨k, hk, rfl⟩ := List.mem_map.1 hx
        exact hp.single k hk)
      rw [← this]
      congr 1
      exact hp.names
    congr 1
    apply List.ext_getElem?
    intro i
    have hl : path.length = (pathOf r).length := by
      have h1 := congrArg List.length ht
      have h2 := congrArg List.length (pathOf_texts r)
      simp only [List.length_map] at h1 h2
      omega
    by_cases hi' : i < path.length
    · have h1 : path[i]? = some path[i] := List.getElem?_eq_getElem hi'
      have h2 : (pathOf r)[i]? = some ((pathOf r)[i]'(hl ▸ hi')) := List.getElem?_eq_getElem _
      rw [h1, h2]
      congr 1
      obtain ⟨l, hl1, hk⟩ := pathOf_get.1 h2
      have htext : (path[i]).text = l := by
        have := congrArg (·[i]?) ht
        simp only [List.getElem?_map, h1, hl1, Option.map_some] at this
        injection this
      have hlev : (path[i]).level = i := hp.level i _ h1
      have hids : (path[i]).id = ((pathOf r)[i]'(hl ▸ hi')).id := idPart_unique (hi i _ h1) (hid i _ h2)
      rw [hk] at hids ⊢
      cases hpi : path[i] with
      | mk a b c =>
        rw [hpi] at htext hlev hids
        simp only at htext hlev hids
        rw [htext, hlev, hids]
    · rw [List.getElem?_eq_none (by omega), List.getElem?_eq_none (by omega)]

example : aget c!"x" [(c!"x", (⟨c!"v", c!"Transport services/Road", c!"5.1"⟩ : Row))] =
    some ⟨c!"v", c!"Transport services/Road", c!"5.1"⟩ ∧ (c!"Transport services/Road").count '/' < 10 := by decide +kernel

/-- A row with more than ten levels is refused. -/
theorem class_too_deep {m : Mapping} {id value : Str} {r : Row} (h : aget id m = some r)
    (hn : 10 ≤ r.cls.count '/') : classesOf m id value = .error .valueError := by
  simp only [classesOf, rowOf, h]
  rw [if_neg (by rw [levels_length]; omega)]

theorem squeeze_eq : ∀ (v : Str), squeeze v = tight v := by
  intro v
  change IlcdVars.replaceAux c!": " c!":" 0 v = tight v
  have key : ∀ (n : Nat) (v : Str), v.length ≤ n → IlcdVars.replaceAux c!": " c!":" 0 v = tight v := by
    intro n
    induction n with
    | zero =>
      intro v hv
      cases v with
      | nil => rfl
      | cons c v => simp at hv
    | succ n ih =>
      intro v hv
      unfold tight
      split
      · rename_i r
        have := IlcdVars.replaceAux_hit (old := c!": ") (new := c!":") (s := r) (by decide)
        rw [show (c!": " ++ r : Str) = ':' :: ' ' :: r from rfl] at this
        rw [this, ih r (by simp at hv; omega)]
        rfl
      · rename_i c r hne
        rw [IlcdVars.replaceAux_miss, ih r (by simp at hv; omega)]
        rintro ⟨q, hq⟩
        change c :: r = ':' :: ' ' :: q at hq
        injection hq with h1 h2
        exact hne q h1 h2
      · rfl
  exact key v.length v (Nat.le_refl _)

/-- **C108.** The one row without an identifier stands for every class of its name, whatever blanks follow the
colons. -/
theorem class_by_name {m : Mapping} {id value : Str} {n : Row} (h : aget id m = none)
    (hnull : aget c!"NULL_UUID" m = some n) (hv : tight value = tight n.value) (v : Str) :
    classesOf m id value = classesOf m c!"NULL_UUID" v := by
  simp only [classesOf, rowOf, h, hnull]
  rw [if_pos (by rw [squeeze_eq, squeeze_eq, hv])]

/-- **C108.** A class the mapping does not know is written with its own text, on level 0 with the identifier
"0". -/
theorem class_unknown {m : Mapping} {id value : Str} (h : aget id m = none)
    (hnull : ∀ n, aget c!"NULL_UUID" m = some n → tight value ≠ tight n.value) :
    classesOf m id value = .ok [⟨0, c!"0", value⟩] := by
  have : rowOf m id value = none := by
    simp only [rowOf, h]
    cases hn : aget c!"NULL_UUID" m with
    | none => rfl
    | some n =>
      simp only
      rw [if_neg (by rw [squeeze_eq, squeeze_eq]; exact hnull n hn)]
  simp only [classesOf, this]

example : aget c!"y" [(c!"NULL_UUID", (⟨c!"3510c:Electric power generation, wind",
    c!"Energy carriers and technologies/Renewable fuels", c!"1.11"⟩ : Row))] = none ∧
    tight c!"3510c: Electric power generation, wind" = tight c!"3510c:Electric power generation, wind" ∧
    tight c!"35: Energy" ≠ tight c!"3510c:Electric power generation, wind" := by decide +kernel

/-- The text of the source is lost where the mapping knows the identifier. -/
theorem value_unused {m : Mapping} {id : Str} (h : aget id m ≠ none) (v w : Str) :
    classesOf m id v = classesOf m id w := by
  cases e : aget id m with
  | none => exact absurd e h
  | some r => simp only [classesOf, rowOf, e]

/-! ## The file the classes belong to -/

private theorem pathOf_value (r : Row) (v : Str) : pathOf ⟨v, r.cls, r.clsId⟩ = pathOf r := rfl

private theorem shipped_pair {m : Mapping} (hm : Shipped m) {id : Str} {r : Row} (h : aget id m = some r) :
    (r.clsId, r.cls) ∈ mappedPairs := hm _ (aget_mem h)

private theorem shipped_path {m : Mapping} (hm : Shipped m) {id : Str} {r : Row} (h : aget id m = some r) (v : Str) :
    classesOf m id v = .ok (pathOf r) := by
  have hs : ∀ p ∈ mappedPairs, p.2.count '/' < 10 := by decide +kernel
  have := hs _ (shipped_pair hm h)
  simp only [classesOf, rowOf, h]
  rw [if_pos (by rw [levels_length]; simp only at this; omega)]
  rfl

/-- **C109 (partial).** A class of the shipped mapping is a category of the process section of the shipped
classification file, with its identifiers and names, except where the mapping has no identifier ("#N/A") or
spells the main class otherwise ("Other services", "Use and Consumption"). -/
theorem process_class_iff_partial {m : Mapping} (hm : Shipped m) {id v : Str} {r : Row} (h : aget id m = some r)
    {path : List Class} (hp : classesOf m id v = .ok path) :
    Listed processFile path ↔
      r.clsId ≠ c!"#N/A" ∧ ¬ c!"Other services/" <+: r.cls ∧ r.cls ≠ c!"Use and Consumption" := by
  rw [shipped_path hm h] at hp
  injection hp with hp
  subst hp
  have key : ∀ p ∈ mappedPairs, Listed processFile (pathOf ⟨[], p.2, p.1⟩) ↔
      p.1 ≠ c!"#N/A" ∧ ¬ c!"Other services/" <+: p.2 ∧ p.2 ≠ c!"Use and Consumption" := by decide +kernel
  exact key _ (shipped_pair hm h)

/-- All three exceptions occur in the mapping, and so do classes that are in the file. -/
theorem process_class_exceptions :
    (c!"#N/A", c!"Wastes/Production residues") ∈ mappedPairs ∧
    (c!"6.11", c!"Other services/Education") ∈ mappedPairs ∧
    (c!"7", c!"Use and Consumption") ∈ mappedPairs ∧
    (c!"5.1", c!"Transport services/Road") ∈ mappedPairs := by decide +kernel

private theorem no_zero : (∀ w ∈ ways processFile, w.head?.map (·.1) ≠ some c!"0") ∧
    ∀ w ∈ ways flowFile, w.head?.map (·.1) ≠ some c!"0" := by decide +kernel

private theorem zero_not_listed {sec : List ((Str × Str) × List (Str × Str))} {v : Str}
    (h : ∀ w ∈ ways sec, w.head?.map (·.1) ≠ some c!"0") : ¬ Listed sec [⟨0, c!"0", v⟩] := by
  rintro ⟨w, hw, e⟩
  cases w with
  | nil => simp at e
  | cons p w =>
    rw [List.mapIdx_cons] at e
    injection e with e _
    injection e with _ e _
    exact h _ hw (by simp [← e])

/-- **C109 (violated).** A class the mapping does not know is written with an identifier that no category of the
file has. -/
theorem unknown_not_listed {m : Mapping} {id v : Str} (h : aget id m = none)
    (hnull : ∀ n, aget c!"NULL_UUID" m = some n → tight v ≠ tight n.value) {path : List Class}
    (hp : classesOf m id v = .ok path) : ¬ Listed processFile path ∧ ¬ Listed flowFile path := by
  rw [class_unknown h hnull] at hp
  injection hp with hp
  subst hp
  exact ⟨zero_not_listed no_zero.1, zero_not_listed no_zero.2⟩

private theorem classesOf_cases {m : Mapping} (hm : Shipped m) (id v : Str) :
    (∃ r, (r.clsId, r.cls) ∈ mappedPairs ∧ classesOf m id v = .ok (pathOf r)) ∨
      classesOf m id v = .ok [⟨0, c!"0", v⟩] := by
  cases h : aget id m with
  | some r => exact .inl ⟨r, shipped_pair hm h, shipped_path hm h v⟩
  | none =>
    by_cases hn : ∃ n, aget c!"NULL_UUID" m = some n ∧ tight v = tight n.value
    · obtain ⟨n, hn, hv⟩ := hn
      exact .inl ⟨n, shipped_pair hm hn, by rw [class_by_name h hn hv v, shipped_path hm hn]⟩
    · exact .inr (class_unknown h fun n hn' e => hn ⟨n, hn', e⟩)

private theorem mapM_forall₂ {α β : Type} {f : α → Py β} : ∀ {l : List α} {r : List β},
    l.mapM f = .ok r ↔ List.Forall₂ (fun a b => f a = .ok b) l r
  | [], r => by
    simp only [List.mapM_nil, pure, Except.pure, List.forall₂_nil_left_iff]
    exact ⟨fun h => by injection h with h; exact h.symm, fun h => by rw [h]⟩
  | a :: l, r => by
    rw [List.mapM_cons]
    constructor
    · intro h
      cases ha : f a with
      | error e => simp [ha, bind, Except.bind] at h
      | ok b =>
        cases hl : l.mapM f with
        | error e => simp [ha, hl, bind, Except.bind] at h
        | ok bs =>
          simp only [ha, hl, bind, Except.bind, pure, Except.pure] at h
          injection h with h
          subst h
          exact .cons ha (mapM_forall₂.1 hl)
    · intro h
      cases h with
      | cons ha hl =>
        rw [ha, mapM_forall₂.2 hl]
        rfl

private theorem forall₂_right {α β : Type} {R : α → β → Prop} {l : List α} {r : List β} (h : List.Forall₂ R l r) :
    ∀ b ∈ r, ∃ a ∈ l, R a b := by
  induction h with
  | nil => simp
  | cons h _ ih =>
    intro b hb
    rcases List.mem_cons.1 hb with rfl | hb
    · exact ⟨_, by simp, h⟩
    · obtain ⟨a, ha, e⟩ := ih b hb
      exact ⟨a, by simp [ha], e⟩

private theorem forall₂_left {α β : Type} {R : α → β → Prop} {l : List α} {r : List β} (h : List.Forall₂ R l r) :
    ∀ a ∈ l, ∃ b ∈ r, R a b := by
  induction h with
  | nil => simp
  | cons h _ ih =>
    intro b hb
    rcases List.mem_cons.1 hb with rfl | hb
    · exact ⟨_, by simp, h⟩
    · obtain ⟨a, ha, e⟩ := ih b hb
      exact ⟨a, by simp [ha], e⟩

/-! ## Which classifications are written, and in which order -/

private theorem convert_name {m : Mapping} {x : Source} {c : Classification} (h : convert m x = .ok c) :
    c.name = c!"ILCD" := by
  unfold convert at h
  cases hv : x.value with
  | none => simp [hv] at h
  | some v =>
    simp only [hv, bind, Except.bind] at h
    cases hc : classesOf m x.id v with
    | error e => simp [hc] at h
    | ok p =>
      simp only [hc, pure, Except.pure] at h
      injection h with h
      rw [← h]

private theorem organize_id {cs : List Classification} {p : Str} (h : ∀ c ∈ cs, c.name ≠ p) : organize cs p = cs := by
  unfold organize
  rw [List.findIdx?_eq_none_iff.2 (by simpa using h)]

private theorem of_iff {m : Mapping} {xs : List Source} {p : Str} (hp : c!"ILCD" ≠ p) {cs : List Classification} :
    (do let cs ← (xs.filter kept).mapM (convert m)
        pure (organize cs p) : Py (List Classification)) = .ok cs ↔
      List.Forall₂ (fun x c => convert m x = .ok c) (xs.filter kept) cs := by
  have key : ∀ bs, (xs.filter kept).mapM (convert m) = .ok bs → organize bs p = bs := by
    intro bs hb
    apply organize_id
    intro c hc
    obtain ⟨x, _, hx⟩ := forall₂_right (mapM_forall₂.1 hb) c hc
    rw [convert_name hx]
    exact hp
  rw [← mapM_forall₂]
  cases hb : (xs.filter kept).mapM (convert m) with
  | error e => simp [bind, Except.bind]
  | ok bs =>
    simp only [bind, Except.bind, pure, Except.pure]
    rw [key bs hb]

/-- **C110.** The classifications of a flow data set are those of the systems ISIC rev.4 and CPC in the order of
the source: nothing is put in front. -/
theorem flow_order_partial {m : Mapping} {xs : List Source} {cs : List Classification} :
    ofFlow m xs = .ok cs ↔ List.Forall₂ (fun x c => convert m x = .ok c)
      (xs.filter fun x => x.system = c!"ISIC rev.4 ecoinvent" ∨ x.system = c!"CPC") cs := by
  have hk : kept = fun x : Source => decide (x.system = c!"ISIC rev.4 ecoinvent" ∨ x.system = c!"CPC") := by
    funext x
    simp [kept]
  rw [← hk]
  exact of_iff (by decide)

/-- **C110.** The same for a process data set. -/
theorem process_order_partial {m : Mapping} {xs : List Source} {cs : List Classification} :
    ofProcess m xs = .ok cs ↔ List.Forall₂ (fun x c => convert m x = .ok c)
      (xs.filter fun x => x.system = c!"ISIC rev.4 ecoinvent" ∨ x.system = c!"CPC") cs := by
  have hk : kept = fun x : Source => decide (x.system = c!"ISIC rev.4 ecoinvent" ∨ x.system = c!"CPC") := by
    funext x
    simp [kept]
  rw [← hk]
  exact of_iff (by decide)

/-- Two rows of the mapping file. -/
private def road : Str × Row := (c!"1d54ab7d-c743-4ec0-a961-48c367c70f3a",
  ⟨c!"492:Other land transport", c!"Transport services/Road", c!"5.1"⟩)
private def power : Str × Row := (c!"65f692bc-84ef-4a57-b6b6-ad584842e799",
  ⟨c!"171: Electrical energy", c!"Energy carriers and technologies/Electricity", c!"1.2"⟩)

/-- **C110 (violated).** A flow whose CPC class comes second in the source keeps it second, a process its ISIC
class. -/
theorem priority_not_first : ∃ (m : Mapping) (isic cpc : Source) (a b : Classification), Shipped m ∧
    isic.system = c!"ISIC rev.4 ecoinvent" ∧ cpc.system = c!"CPC" ∧
    convert m isic = .ok a ∧ convert m cpc = .ok b ∧ a ≠ b ∧
    ofFlow m [isic, cpc] = .ok [a, b] ∧ ofProcess m [cpc, isic] = .ok [b, a] := by
  refine ⟨[road, power], ⟨c!"ISIC rev.4 ecoinvent", some c!"492:Other land transport", road.1⟩,
    ⟨c!"CPC", some c!"171: Electrical energy", power.1⟩,
    ⟨c!"ILCD", c!"../ILCDClassification.xml", [⟨0, c!"5", c!"Transport services"⟩, ⟨1, c!"5.1", c!"Road"⟩]⟩,
    ⟨c!"ILCD", c!"../ILCDClassification.xml",
      [⟨0, c!"1", c!"Energy carriers and technologies"⟩, ⟨1, c!"1.2", c!"Electricity"⟩]⟩, ?_, rfl, rfl, ?_⟩
  · intro e he
    have : e = road ∨ e = power := by simpa using he
    rcases this with rfl | rfl <;> decide +kernel
  · exact ⟨rfl, rfl, by decide, rfl, rfl⟩

/-- **C110.** With the shipped mapping a data set stops the conversion exactly if a classification of one of the
two systems has no text. -/
theorem flow_converted_iff {m : Mapping} (hm : Shipped m) (xs : List Source) :
    (∃ cs, ofFlow m xs = .ok cs) ↔
      ∀ x ∈ xs, (x.system = c!"ISIC rev.4 ecoinvent" ∨ x.system = c!"CPC") → x.value ≠ none := by
  have conv : ∀ x : Source, x.value ≠ none ↔ ∃ c, convert m x = .ok c := by
    intro x
    unfold convert
    cases hv : x.value with
    | none => simp
    | some v =>
      refine ⟨fun _ => ?_, fun _ => by simp⟩
      rcases classesOf_cases hm x.id v with ⟨r, _, h⟩ | h <;>
        exact ⟨_, by simp only [h, bind, Except.bind, pure, Except.pure]; rfl⟩
  constructor
  · rintro ⟨cs, h⟩ x hx hk
    have hf := flow_order_partial.1 h
    have hx' : x ∈ xs.filter fun x => x.system = c!"ISIC rev.4 ecoinvent" ∨ x.system = c!"CPC" :=
      List.mem_filter.2 ⟨hx, by simpa using hk⟩
    obtain ⟨c, _, hc⟩ := forall₂_left hf x hx'
    exact (conv x).2 ⟨c, hc⟩
  · intro h
    have : ∀ l : List Source, (∀ x ∈ l, ∃ c, convert m x = .ok c) →
        ∃ cs, List.Forall₂ (fun x c => convert m x = .ok c) l cs := by
      intro l
      induction l with
      | nil => exact fun _ => ⟨[], .nil⟩
      | cons a l ih =>
        intro hl
        obtain ⟨c, hc⟩ := hl a (by simp)
        obtain ⟨cs, hcs⟩ := ih fun x hx => hl x (by simp [hx])
        exact ⟨c :: cs, .cons hc hcs⟩
    obtain ⟨cs, hcs⟩ := this (xs.filter fun x => x.system = c!"ISIC rev.4 ecoinvent" ∨ x.system = c!"CPC") fun x hx => by
      obtain ⟨h1, h2⟩ := List.mem_filter.1 hx
      exact (conv x).1 (h x h1 (by simpa using h2))
    exact ⟨cs, flow_order_partial.2 hcs⟩

/-- **C109 (violated).** No classification of a flow data set is a category of the flow section of the shipped
file, whatever the source says: the identifiers are those of the process section. -/
theorem flow_class_never {m : Mapping} (hm : Shipped m) {xs : List Source} {cs : List Classification}
    (h : ofFlow m xs = .ok cs) : ∀ c ∈ cs, ¬ Listed flowFile c.path := by
  have key : ∀ p ∈ mappedPairs, ¬ Listed flowFile (pathOf ⟨[], p.2, p.1⟩) := by decide +kernel
  have hf := flow_order_partial.1 h
  intro c hc
  obtain ⟨x, _, hx⟩ := forall₂_right hf c hc
  unfold convert at hx
  cases hv : x.value with
  | none => simp [hv] at hx
  | some v =>
    simp only [hv] at hx
    rcases classesOf_cases hm x.id v with ⟨r, hr, e⟩ | e <;> rw [e] at hx <;>
      simp only [bind, Except.bind, pure, Except.pure] at hx <;> injection hx with hx <;> rw [← hx]
    · exact key _ hr
    · exact zero_not_listed no_zero.2

/-- **C109 (partial).** The names alone are those of a flow category for the classes that are right for a
process, "Non-energetic raw materials" excepted, and for the wastes. -/
theorem flow_names_iff_partial {m : Mapping} (hm : Shipped m) {id v : Str} {r : Row} (h : aget id m = some r)
    {path : List Class} (hp : classesOf m id v = .ok path) :
    NameListed flowFile (path.map fun k => k.text) ↔
      (Listed processFile path ∧ r.clsId ≠ c!"2.1") ∨ c!"Wastes" <+: r.cls := by
  rw [shipped_path hm h] at hp
  injection hp with hp
  subst hp
  have key : ∀ p ∈ mappedPairs, NameListed flowFile ((pathOf ⟨[], p.2, p.1⟩).map fun k => k.text) ↔
      (Listed processFile (pathOf ⟨[], p.2, p.1⟩) ∧ p.1 ≠ c!"2.1") ∨ c!"Wastes" <+: p.2 := by decide +kernel
  exact key _ (shipped_pair hm h)

example : Shipped [road, power] ∧ aget road.1 [road, power] = some road.2 ∧
    classesOf [road, power] road.1 [] =
      .ok [⟨0, c!"5", c!"Transport services"⟩, ⟨1, c!"5.1", c!"Road"⟩] ∧
    ∃ cs, ofFlow [road, power] [⟨c!"CPC", some c!"171: Electrical energy", power.1⟩,
      ⟨c!"EcoSpold01Categories", none, c!"z"⟩] = .ok cs ∧ cs.length = 1 := by
  refine ⟨?_, rfl, rfl, _, rfl, rfl⟩
  intro e he
  have : e = road ∨ e = power := by simpa using he
  rcases this with rfl | rfl <;> decide +kernel

/-- **C109.** The reference to the classification file leads to the file for processes and flows and not for
sources and contacts: there it stands without the way back to the folder of the data base. -/
theorem file_found_iff {m : Mapping} {x : Source} {c : Classification} (h : convert m x = .ok c) (t : Str)
    (k : Kind) :
    resolve k.folder (match k with | .process | .flow => c.classes | _ => (simple t).classes) =
      c!"ILCDClassification.xml" ↔ k = .process ∨ k = .flow := by
  have hc : c.classes = c!"../ILCDClassification.xml" := by
    unfold convert at h
    cases hv : x.value with
    | none => simp [hv] at h
    | some v =>
      simp only [hv, bind, Except.bind] at h
      cases hc : classesOf m x.id v with
      | error e => simp [hc] at h
      | ok p =>
        simp only [hc, pure, Except.pure] at h
        injection h with h
        rw [← h]
  cases k <;> simp only [hc, simple] <;> decide

/-- **C109 (partial).** The class names of sources and contacts are main categories of their sections. -/
theorem simple_listed_partial :
    (∀ x ∈ sourceClasses, NameListed sourceFile [(simple x).text]) ∧
    ∀ x ∈ contactClasses, NameListed contactFile [(simple x).text] := by decide +kernel

/-- The text of a class of the mapping fits its field. -/
theorem mapped_text_fits {m : Mapping} (hm : Shipped m) {id v : Str} (h : aget id m ≠ none) {path : List Class}
    (hp : classesOf m id v = .ok path) (a b : Str) : written false [⟨a, b, path⟩] = .ok [⟨a, b, path⟩] := by
  obtain ⟨r, hr⟩ := Option.ne_none_iff_exists'.1 h
  rw [shipped_path hm hr] at hp
  injection hp with hp
  subst hp
  have key : ∀ p ∈ mappedPairs, ((pathOf ⟨[], p.2, p.1⟩).all fun k => 1 ≤ k.text.length && k.text.length ≤ 500) = true := by
    decide +kernel
  have : ((pathOf r).all fun k => 1 ≤ k.text.length && k.text.length ≤ 500) = true := key _ (shipped_pair hm hr)
  unfold written
  rw [if_pos (by simpa using this)]

/-- A class without a row is written if its text has 1 to 500 characters. -/
theorem unknown_text_fits_iff {m : Mapping} {id v : Str} (h : aget id m = none)
    (hnull : ∀ n, aget c!"NULL_UUID" m = some n → tight v ≠ tight n.value) {path : List Class}
    (hp : classesOf m id v = .ok path) (a b : Str) :
    (∃ cs, written false [⟨a, b, path⟩] = .ok cs) ↔ 1 ≤ v.length ∧ v.length ≤ 500 := by
  rw [class_unknown h hnull] at hp
  injection hp with hp
  subst hp
  unfold written
  simp only [List.all_cons, List.all_nil, Bool.and_true, Bool.false_or]
  split
  · rename_i h; exact ⟨fun _ => by simpa using h, fun _ => ⟨_, rfl⟩⟩
  · rename_i h; exact ⟨fun ⟨_, e⟩ => (by cases e), fun e => absurd (by simpa using e) h⟩

/-- The by-product class of an exchange is the value of the last by-product classification that has a value. -/
theorem byProduct_last (xs : List Source) : byProduct xs =
    ((xs.filter fun x => x.system = c!"By-product classification").filterMap (·.value)).getLast? := by
  unfold byProduct
  have key : ∀ (xs : List Source) (o : Option Str),
      xs.foldl (fun o x => if x.system = c!"By-product classification" then x.value.or o else o) o =
        (((xs.filter fun x => x.system = c!"By-product classification").filterMap (·.value)).getLast?).or o := by
    intro xs
    induction xs with
    | nil => intro o; rfl
    | cons x xs ih =>
      intro o
      rw [List.foldl_cons, ih]
      by_cases hx : x.system = c!"By-product classification"
      · rw [if_pos hx, List.filter_cons_of_pos (by simpa using hx)]
        cases hv : x.value with
        | none => rw [List.filterMap_cons_none hv]; rfl
        | some v =>
          rw [List.filterMap_cons_some hv, List.getLast?_cons]
          cases ((xs.filter fun x => decide (x.system = c!"By-product classification")).filterMap
            (·.value)).getLast? <;> rfl
      · rw [if_neg hx, List.filter_cons_of_neg (by simpa using hx)]
  rw [key, Option.or_none]

end Verif.Classes
