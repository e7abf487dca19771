/-
Names with their namespaces, and the values of the elements read.
-/
import Verif.Lemmas.XmlDoc
import Verif.Lemmas.XmlValue

namespace Verif.XmlWrite
open Verif.XmlParse
open Verif.Xml (Elem localName afterLast elem2dict childEntries startDict collapse addChild attrEntries textEntry)
open Verif.Xml.Spec (Name WellNamed)
open Spec (IsName Named NamedAll Plain PlainAll newlines newlinesAll localPart prefixPart Qualified)

/-- The prefixes declared by attributes. -/
def decl (a : List (Str × Str)) : List Str := (a.map Prod.fst).filterMap declares

/-- The attributes that are no declarations, with their local names. -/
def plain (a : List (Str × Str)) : List (Str × Str) :=
  (a.filter fun x => (declares x.1).isNone).map fun x => (localPart x.1, x.2)

mutual
/-- Every prefix is declared, and no two attributes have one local name. -/
def Bound (ps : List Str) : Tree → Prop
  | .mk n a ks _ =>
    Qualified (decl a ++ ps) n ∧ (∀ x ∈ a, declares x.1 = none → Qualified (decl a ++ ps) x.1) ∧
      ((plain a).map Prod.fst).Nodup ∧ BoundAll (decl a ++ ps) ks
def BoundAll (ps : List Str) : List Tree → Prop
  | [] => True
  | t :: ts => Bound ps t ∧ BoundAll ps ts
end

mutual
/-- The value of an element that is read. -/
def val : Tree → PyVal
  | .mk _ a ks c =>
    collapse ((vals ks).foldl addChild (startDict (plain a) (someText (if ks.isEmpty then c else [])) ks.isEmpty))
def vals : List Tree → List (Str × PyVal)
  | [] => []
  | t :: ts => (localPart t.name, val t) :: vals ts
end

/-! ### Names -/

theorem takeWhile_self {p : Char → Bool} {l : Str} (h : ∀ c ∈ l, p c = true) : l.takeWhile p = l := by
  induction l with
  | nil => rfl
  | cons c l ih => rw [List.takeWhile_cons, if_pos (h c (by simp)), ih fun x hx => h x (by simp [hx])]

theorem name_noBrace {n : Str} (h : IsName n) : ∀ c ∈ n, (c != '}') = true := by
  intro c hc
  have := nameChar_not (isName_all h c hc) (x := '}') (by decide)
  simpa using this

theorem localName_local {n : Str} (h : IsName n) : localName n = n := by
  rw [localName, afterLast, takeWhile_self, List.reverse_reverse]
  intro c hc
  exact name_noBrace h c (by simpa using hc)

theorem localName_expanded {n : Str} (h : IsName n) (u : Str) : localName ('{' :: (u ++ '}' :: n)) = n := by
  have : ('{' :: (u ++ '}' :: n)).reverse = n.reverse ++ '}' :: (u.reverse ++ ['{']) := by simp
  rw [localName, afterLast, this, List.takeWhile_append_of_pos, List.takeWhile_cons, if_neg (by decide),
    List.append_nil, List.reverse_reverse]
  intro c hc
  exact name_noBrace h c (by simpa using hc)

theorem isName_Name {n : Str} (h : IsName n) : Name n := by
  refine ⟨?_, ?_⟩
  · rintro rfl; exact h
  · intro c hc
    have := isName_all h c hc
    exact ⟨nameChar_not this (by decide), nameChar_not this (by decide), nameChar_not this (by decide)⟩


/-- A context binds the prefixes. -/
def Binds (ps : List Str) (ctx : List (Str × Str)) : Prop := ∀ p ∈ ps, p ≠ [] → p ∈ ctx.map Prod.fst

theorem binds_bindings {ps : List Str} {ctx : List (Str × Str)} (h : Binds ps ctx) (a : List (Str × Str)) :
    Binds (decl a ++ ps) (bindings ctx a) := by
  intro p hp hne
  rw [bindings, List.map_append, List.mem_append]
  rcases List.mem_append.1 hp with hp | hp
  · left
    rw [decl, List.mem_filterMap] at hp
    obtain ⟨k, hk, hd⟩ := hp
    obtain ⟨x, hx, rfl⟩ := List.mem_map.1 hk
    exact List.mem_map.2 ⟨(p, x.2), List.mem_filterMap.2 ⟨x, hx, by rw [hd]; rfl⟩, rfl⟩
  · right; exact h p hp hne

theorem tagName_some {ps ctx n} (hb : Binds ps ctx) (h : Qualified ps n) :
    ∃ m, tagName ctx n = some m ∧ localName m = localPart n := by
  obtain ⟨hn, hl, hc, h⟩ := h
  unfold tagName
  change IsName (splitName n).2 at hl
  change ((splitName n).1 = [] ∧ _) ∨ ((splitName n).1 ≠ [] ∧ (splitName n).1 ∈ ps) at h
  cases hg : aget (splitName n).1 ctx with
  | some u =>
    simp only
    split
    · exact ⟨_, rfl, localName_local hl⟩
    · exact ⟨_, rfl, localName_expanded hl u⟩
  | none =>
    simp only
    rcases h with h | h
    · rw [if_pos h.1]; exact ⟨_, rfl, localName_local hl⟩
    · exact absurd (hb _ h.2 h.1) ((aget_none _ _).1 hg)

theorem attrName_some {ps ctx n} (hb : Binds ps ctx) (h : Qualified ps n) :
    ∃ m, attrName ctx n = some m ∧ localName m = localPart n := by
  obtain ⟨hn, hl, hc, h⟩ := h
  unfold attrName
  change IsName (splitName n).2 at hl
  change ((splitName n).1 = [] ∧ (splitName n).2 = n) ∨ ((splitName n).1 ≠ [] ∧ (splitName n).1 ∈ ps) at h
  rcases h with h | h
  · rw [if_pos h.1]
    refine ⟨n, rfl, ?_⟩
    rw [localName_local hn]; exact h.2.symm
  · rw [if_neg h.1]
    cases hg : aget (splitName n).1 ctx with
    | some u => exact ⟨_, rfl, localName_expanded hl u⟩
    | none => exact absurd (hb _ h.2 h.1) ((aget_none _ _).1 hg)

/-! ### Attributes -/

theorem plain_cons (x : Str × Str) (l : List (Str × Str)) :
    plain (x :: l) = if (declares x.1).isSome then plain l else (localPart x.1, x.2) :: plain l := by
  rw [plain, List.filter_cons]
  cases declares x.1 <;> simp [plain]

theorem attrNames_some {ps ctx} (hb : Binds ps ctx) {a : List (Str × Str)}
    (h : ∀ x ∈ a, declares x.1 = none → Qualified ps x.1) (hn : ((plain a).map Prod.fst).Nodup) :
    ∃ b, attrNames ctx a = some b ∧ b.map (fun x => (localName x.1, x.2)) = plain a := by
  induction a with
  | nil => exact ⟨[], rfl, rfl⟩
  | cons x l ih =>
    obtain ⟨k, v⟩ := x
    rw [plain_cons] at hn ⊢
    rw [attrNames]
    by_cases hd : (declares k).isSome = true
    · rw [if_pos hd] at hn ⊢
      rw [if_pos hd]
      exact ih (fun x hx => h x (by simp [hx])) hn
    · rw [if_neg hd] at hn ⊢
      rw [if_neg hd]
      rw [List.map_cons, List.nodup_cons] at hn
      obtain ⟨b, hb1, hb2⟩ := ih (fun x hx => h x (by simp [hx])) hn.2
      obtain ⟨m, hm1, hm2⟩ := attrName_some hb (h (k, v) (by simp) (by simpa using hd))
      rw [hm1, hb1]
      have hnot : m ∉ b.map Prod.fst := by
        intro hmem
        obtain ⟨y, hy, rfl⟩ := List.mem_map.1 hmem
        apply hn.1
        rw [← hb2, List.map_map]
        exact List.mem_map.2 ⟨y, hy, hm2⟩
      simp only [hnot, if_false]
      exact ⟨_, rfl, by simp [hm2, hb2]⟩

theorem attrEntries_congr {a b : List (Str × Str)}
    (h : a.map (fun x => (localName x.1, x.2)) = b.map (fun x => (localName x.1, x.2))) :
    attrEntries a = attrEntries b := by
  have key : ∀ l : List (Str × Str), attrEntries l =
      (l.map fun x => (localName x.1, x.2)).foldl (fun d y => aset ('@' :: y.1) (PyVal.str y.2) d) [] := by
    intro l; rw [List.foldl_map]; rfl
  rw [key, key, h]

/-! ### Elements -/

theorem raws_isEmpty (d : Nat) (f : Str) (ks : List Tree) : (raws d f ks).isEmpty = ks.isEmpty := by
  cases ks <;> rfl

theorem pySpace_indent (d : Nat) : isSpaceStr ('\n' :: indent d) = true := by
  simp only [isSpaceStr, List.isEmpty_cons, Bool.not_false, Bool.true_and, List.all_cons, Bool.and_eq_true]
  refine ⟨by decide, ?_⟩
  rw [List.all_eq_true]
  intro c hc
  rw [List.eq_of_mem_replicate hc]
  decide

mutual
theorem resolve_raw (t : Tree) (ps : List Str) (hb : Bound ps t) (ctx : List (Str × Str)) (hc : Binds ps ctx)
    (d : Nat) (tail : Str) :
    ∃ e, resolve ctx (raw d tail t) = some e ∧ localName e.tag = localPart t.name ∧ elem2dict e = val t ∧
      WellNamed e := by
  match t with
  | .mk n a ks c =>
    rw [Bound] at hb
    obtain ⟨h1, h2, h3, h4⟩ := hb
    have hc' := binds_bindings hc a
    obtain ⟨m, hm1, hm2⟩ := tagName_some hc' h1
    obtain ⟨b, hb1, hb2⟩ := attrNames_some hc' h2 h3
    obtain ⟨es, he1, he2, he3⟩ := resolves_raws ks _ h4 _ hc' (d + 1) (c ++ indent d)
    rw [raw, resolve, hm1, hb1, he1]
    refine ⟨_, rfl, hm2, ?_, ?_⟩
    · have hemp : es.isEmpty = ks.isEmpty := by
        have : (childEntries es).length = (vals ks).length := by rw [he2]
        have h' : es.length = (vals ks).length := by
          rw [← this, Xml.childEntries_eq, List.length_map]
        cases ks with
        | nil => rw [vals, List.length_nil, List.length_eq_zero_iff] at h'; rw [h']; rfl
        | cons k ks => cases es with
          | nil => rw [vals] at h'; simp at h'
          | cons e es => rfl
      have hattr : attrEntries b = attrEntries (plain a) := by
        apply attrEntries_congr
        rw [hb2]
        have : ∀ x ∈ plain a, (fun x : Str × Str => (localName x.1, x.2)) x = x := by
          intro x hx
          rw [plain, List.mem_map] at hx
          obtain ⟨y, hy, rfl⟩ := hx
          rw [List.mem_filter] at hy
          have hq := h2 y hy.1 (by simpa using hy.2)
          simp only [localName_local hq.2.1]
        rw [List.map_congr_left this, List.map_id']
      rw [elem2dict, val, he2, hemp]
      congr 2
      cases ks with
      | nil => simp only [startDict, hattr, List.isEmpty_nil, if_true]
      | cons k ks =>
        have ht : textEntry (someText ('\n' :: indent (d + 1))) = none := by
          simp [someText, textEntry, pySpace_indent]
        simp only [startDict, hattr, List.isEmpty_cons, Bool.false_eq_true, if_false, ht]
        rfl
    · refine .mk _ _ _ _ _ (by rw [hm2]; exact isName_Name h1.2.1) ?_ ?_ he3
      · intro x hx
        have : (localName x.1, x.2) ∈ plain a := by rw [← hb2]; exact List.mem_map.2 ⟨x, hx, rfl⟩
        rw [plain, List.mem_map] at this
        obtain ⟨y, hy, hxy⟩ := this
        rw [List.mem_filter] at hy
        have hq := h2 y hy.1 (by simpa using hy.2)
        have : localName x.1 = localPart y.1 := (Prod.mk.inj hxy).1.symm
        rw [this]; exact isName_Name hq.2.1
      · have : (b.map fun x => localName x.1) = (plain a).map Prod.fst := by
          rw [← hb2, List.map_map]; rfl
        rw [this]; exact h3
theorem resolves_raws (ks : List Tree) (ps : List Str) (hb : BoundAll ps ks) (ctx : List (Str × Str))
    (hc : Binds ps ctx) (d : Nat) (f : Str) :
    ∃ es, resolves ctx (raws d f ks) = some es ∧ childEntries es = vals ks ∧ ∀ e ∈ es, WellNamed e := by
  match ks with
  | [] => exact ⟨[], rfl, rfl, by simp⟩
  | t :: ts =>
    rw [BoundAll] at hb
    obtain ⟨e, h1, h2, h3, h4⟩ := resolve_raw t ps hb.1 ctx hc d ('\n' :: (if ts.isEmpty then f else indent d))
    obtain ⟨es, g1, g2, g3⟩ := resolves_raws ts ps hb.2 ctx hc d f
    rw [raws, resolves, h1, g1]
    refine ⟨_, rfl, ?_, ?_⟩
    · rw [childEntries, vals, h2, h3, g2]
    · intro x hx
      rcases List.mem_cons.1 hx with rfl | hx
      · exact h4
      · exact g3 x hx
end

mutual
theorem bound_newlines (t : Tree) (ps : List Str) (h : Bound ps t) : Bound ps (newlines t) := by
  match t with
  | .mk n a ks c =>
    rw [Bound] at h
    rw [newlines, Bound]
    exact ⟨h.1, h.2.1, h.2.2.1, boundAll_newlines ks _ h.2.2.2⟩
theorem boundAll_newlines (ks : List Tree) (ps : List Str) (h : BoundAll ps ks) : BoundAll ps (newlinesAll ks) := by
  match ks with
  | [] => rw [newlinesAll, BoundAll]; trivial
  | t :: ts =>
    rw [BoundAll] at h
    rw [newlinesAll, BoundAll]
    exact ⟨bound_newlines t ps h.1, boundAll_newlines ts ps h.2⟩
end

end Verif.XmlWrite
