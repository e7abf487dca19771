/-
The elements of a written file, by their paths.
-/
import Verif.Lemmas.XmlBack

namespace Verif.XmlWrite
open Verif.XmlParse
open Verif.Xml (Elem localName elem2dict)
open Verif.Xml.Spec (select)
open Spec (IsName newlines newlinesAll localPart Qualified fits kidsFit rowFits isList back children entriesOf reach declared
  attrsBack)

/-- Two lists side by side. -/
inductive Side {α β : Type} (R : α → β → Prop) : List α → List β → Prop
  | nil : Side R [] []
  | cons {a b l m} : R a b → Side R l m → Side R (a :: l) (b :: m)

/-- The element stands for the value: name and value, and so do its children. -/
inductive Stands (env : Env) : Str × PyVal → Elem → Prop
  | mk (k : Str) (v : PyVal) (e : Elem) : localName e.tag = localPart k → elem2dict e = back env v →
      Side (Stands env) (children v) e.children → Stands env (k, v) e

theorem Stands.name {env x e} (h : Stands env x e) : localName e.tag = localPart x.1 := by cases h; assumption
theorem Stands.value {env x e} (h : Stands env x e) : elem2dict e = back env x.2 := by cases h; assumption
theorem Stands.kids {env x e} (h : Stands env x e) : Side (Stands env) (children x.2) e.children := by
  cases h; assumption

theorem raw_children (d : Nat) (tail : Str) (n : Str) (a : List (Str × Str)) (ks : List Tree) (c : Str) :
    raw d tail (.mk n a ks c) = .mk n a (someText (if ks.isEmpty then c else '\n' :: indent (d + 1)))
      (raws (d + 1) (c ++ indent d) ks) (someText tail) := by rw [raw]

theorem resolve_children {ctx : List (Str × Str)} {t a x c y} {e : Elem} (h : resolve ctx (.mk t a x c y) = some e) :
    resolves (bindings ctx a) c = some e.children := by
  rw [resolve] at h
  split at h
  · rename_i t' a' c' h1 h2 h3
    cases h
    exact h3
  · cases h

theorem resolves_append {ctx : List (Str × Str)} (l m : List Elem) {es : List Elem}
    (h : resolves ctx (l ++ m) = some es) :
    ∃ a b, resolves ctx l = some a ∧ resolves ctx m = some b ∧ es = a ++ b := by
  induction l generalizing es with
  | nil => exact ⟨[], es, rfl, h, rfl⟩
  | cons x l ih =>
    rw [List.cons_append, resolves] at h
    split at h
    · rename_i e' l' h1 h2
      cases h
      obtain ⟨a, b, ha, hb, rfl⟩ := ih h2
      refine ⟨e' :: a, b, ?_, hb, rfl⟩
      rw [resolves, h1, ha]
    · cases h

theorem raws_append (d : Nat) (f : Str) (l m : List Tree) :
    ∃ g, raws d f (l ++ m) = raws d g l ++ raws d f m := by
  cases m with
  | nil => exact ⟨f, by simp [raws]⟩
  | cons t ts =>
    refine ⟨indent d, ?_⟩
    induction l with
    | nil => simp [raws]
    | cons k l ih =>
      rw [List.cons_append, raws, raws, ih]
      cases l <;> simp

theorem children_cons (k : Str) (v : PyVal) (l : List (Str × PyVal)) :
    children (.dict ((k, v) :: l)) =
      (if isKid k then (entriesOf v).map fun w => (k, w) else []) ++ children (.dict l) := by
  simp only [children, List.filter_cons]
  split <;> simp

theorem forall₂_append {α β : Type} {R : α → β → Prop} {a a' : List α} {b b' : List β} (h : Side R a b)
    (h' : Side R a' b') : Side R (a ++ a') (b ++ b') := by
  induction h with
  | nil => exact h'
  | cons h _ ih => exact .cons h ih

/-- The part of `Stands` that is not about children. -/
theorem stands_top {env : Env} {ps : List Str} {key : Str} {v : PyVal} {t : Tree} (hg : Good env ps key v t)
    (hq : Qualified ps key) {ctx : List (Str × Str)} (hc : Binds ps ctx) {d : Nat} {tail : Str} {e : Elem}
    (he : resolve ctx (raw d tail (newlines t)) = some e) :
    localName e.tag = localPart key ∧ elem2dict e = back env v := by
  obtain ⟨g1, g2, _, g4⟩ := hg
  obtain ⟨e', h1, h2, h3, _⟩ := resolve_raw (newlines t) ps (bound_newlines t ps (g2 hq).2) ctx hc d tail
  rw [he] at h1
  cases h1
  rw [h2, h3, name_newlines, g1, g4]
  exact ⟨rfl, rfl⟩

theorem stands_leaf {env : Env} {ps : List Str} {key : Str} {v : PyVal} {s : Str} (hg : Good env ps key v (.mk key [] [] s))
    (hv : children v = []) (hq : Qualified ps key) {ctx : List (Str × Str)} (hc : Binds ps ctx) {d : Nat} {tail : Str} {e : Elem}
    (he : resolve ctx (raw d tail (newlines (.mk key [] [] s))) = some e) : Stands env (key, v) e := by
  obtain ⟨h1, h2⟩ := stands_top hg hq hc he
  refine .mk _ _ _ h1 h2 ?_
  rw [newlines, newlinesAll, raw_children] at he
  have := resolve_children he
  rw [raws, resolves, Option.some.injEq] at this
  rw [hv, ← this]
  exact .nil

mutual
theorem stands_tree (env : Env) (v : PyVal) (hl : isList v = false) (ps : List Str) (h : fits ps v = true) (key : Str)
    (hq : Qualified ps key) (t : Tree) (ht : tree env key v = .ok t) (ctx : List (Str × Str)) (hc : Binds ps ctx) (d : Nat)
    (tail : Str) (e : Elem) (he : resolve ctx (raw d tail (newlines t)) = some e) : Stands env (key, v) e := by
  obtain ⟨t', ht', hg⟩ := tree_fits env v hl ps h key
  rw [ht] at ht'
  cases ht'
  match v with
  | .dict D =>
    obtain ⟨h1, h2⟩ := stands_top hg hq hc he
    have h' := h
    rw [fits] at h'
    simp only [Bool.and_eq_true, decide_eq_true_eq] at h'
    obtain ⟨ks, hk, _⟩ := kids_fits env D _ h'.2
    rw [tree, hk, cdata_fit env h'.1.2] at ht
    cases ht
    refine .mk _ _ _ h1 h2 ?_
    rw [newlines, raw_children] at he
    have he' := resolve_children he
    refine stands_kids env D _ h'.2 ks hk _ ?_ _ _ _ he'
    rw [← decl_attrsOf env]
    exact binds_bindings hc _
  | .list l => simp [isList] at hl
  | .none => cases ht; exact stands_leaf hg rfl hq hc he
  | .bool b => cases ht; exact stands_leaf hg rfl hq hc he
  | .str s => cases ht; exact stands_leaf hg rfl hq hc he
  | .int i => cases ht; exact stands_leaf hg rfl hq hc he
  | .float a b => cases ht; exact stands_leaf hg rfl hq hc he
  | .inf => cases ht; exact stands_leaf hg rfl hq hc he
  | .ninf => cases ht; exact stands_leaf hg rfl hq hc he
  | .nan => cases ht; exact stands_leaf hg rfl hq hc he
  | .opaque n => cases ht; exact stands_leaf hg rfl hq hc he
theorem stands_kids (env : Env) (D : List (Str × PyVal)) (ps : List Str) (h : kidsFit ps D = true) (ks : List Tree)
    (hk : kids env D = .ok ks) (ctx : List (Str × Str)) (hc : Binds ps ctx) (d : Nat) (f : Str) (es : List Elem)
    (he : resolves ctx (raws d f (newlinesAll ks)) = some es) :
    Side (Stands env) (children (.dict D)) es := by
  match D with
  | [] =>
    cases hk
    rw [newlinesAll, raws, resolves] at he
    cases he
    exact .nil
  | (k, v) :: l =>
    rw [kidsFit, Bool.and_eq_true] at h
    obtain ⟨us, u1, _⟩ := kids_fits env l ps h.2
    rw [kids_cons, u1] at hk
    rw [children_cons]
    by_cases hkid : isKid k = true
    · rw [if_pos hkid] at hk ⊢
      have hq : Qualified ps k ∧ fits ps v = true := by
        have := h.1; rw [hkid] at this; simpa using this
      have main : ∀ ts, rowOf env k v = .ok ts → ∀ g es, resolves ctx (raws d g (newlinesAll ts)) = some es →
          Side (Stands env) ((entriesOf v).map fun w => (k, w)) es := by
        intro ts hts g es hes
        by_cases hl : isList v = true
        · match v, hl, hq, hts with
          | .list r, _, hq, hts =>
            have hf := hq.2
            rw [fits] at hf
            exact stands_row env r ps hf k hq.1 ts hts ctx hc d g es hes
        · have hl' : isList v = false := by simpa using hl
          have hv : entriesOf v = [v] := by
            unfold entriesOf
            split
            · simp [isList] at hl
            · rfl
          obtain ⟨t, ht, _⟩ := tree_fits env v hl' ps hq.2 k
          have : ts = [t] := by
            rw [rowOf_one env k hl', ht] at hts; cases hts; rfl
          subst this
          rw [newlinesAll, newlinesAll, raws, raws, resolves, resolves] at hes
          split at hes
          · rename_i e' l' h1 h2
            cases hes; cases h2
            rw [hv]
            exact .cons (stands_tree env v hl' ps hq.2 k hq.1 t ht ctx hc d _ e' h1) .nil
          · cases hes
      generalize hm : rowOf env k v = M at hk main
      cases M with
      | error e => cases hk
      | ok ts =>
        cases hk
        rw [newlinesAll_append] at he
        obtain ⟨g, hg⟩ := raws_append d f (newlinesAll ts) (newlinesAll us)
        rw [hg] at he
        obtain ⟨a, b, ha, hb, rfl⟩ := resolves_append _ _ he
        exact forall₂_append (main ts rfl g a ha) (stands_kids env l ps h.2 _ u1 ctx hc d f b hb)
    · rw [if_neg hkid] at hk ⊢
      cases hk
      exact stands_kids env l ps h.2 _ u1 ctx hc d f es he
theorem stands_row (env : Env) (l : List PyVal) (ps : List Str) (h : rowFits ps l = true) (key : Str)
    (hq : Qualified ps key) (ts : List Tree) (ht : row env key l = .ok ts) (ctx : List (Str × Str)) (hc : Binds ps ctx)
    (d : Nat) (f : Str) (es : List Elem) (he : resolves ctx (raws d f (newlinesAll ts)) = some es) :
    Side (Stands env) (l.map fun w => (key, w)) es := by
  match l with
  | [] =>
    cases ht
    rw [newlinesAll, raws, resolves] at he
    cases he
    exact .nil
  | v :: l =>
    rw [rowFits, Bool.and_eq_true, Bool.and_eq_true] at h
    obtain ⟨t, h1, _⟩ := tree_fits env v (by simpa using h.1.1) ps h.1.2 key
    obtain ⟨us, u1, _⟩ := row_fits env l ps h.2 key hq
    rw [row, h1, u1] at ht
    cases ht
    have : [t] ++ us = t :: us := rfl
    rw [this, newlinesAll, raws, resolves] at he
    split at he
    · rename_i e' l' g1 g2
      cases he
      exact .cons (stands_tree env v (by simpa using h.1.1) ps h.1.2 key hq t h1 ctx hc d _ e' g1)
        (stands_row env l ps h.2 key hq us u1 ctx hc d f l' g2)
    · cases he
end

theorem select_reach (env : Env) (ns : List Str) (l : List (Str × PyVal)) (es : List Elem)
    (h : Side (Stands env) l es) :
    (select ns es).map elem2dict = (reach ns l).map (back env) := by
  match ns with
  | [] => rfl
  | [n] =>
    rw [select, reach]
    induction h with
    | nil => rfl
    | cons hx _ ih =>
      rw [List.filter_cons, List.filter_cons, hx.name]
      split
      · rw [List.map_cons, List.map_cons, List.map_cons, ih, hx.value]
      · exact ih
  | n :: m :: ns =>
    rw [select, reach]
    induction h with
    | nil => rfl
    | cons hx _ ih =>
      rw [List.filter_cons, List.filter_cons, hx.name]
      split
      · rw [List.flatMap_cons, List.flatMap_cons, List.map_append, List.map_append, ih,
          select_reach env (m :: ns) _ _ hx.kids]
      · exact ih

end Verif.XmlWrite
