/-
What is read of a dictionary that was written.
-/
import Verif.Lemmas.XmlResolve

namespace Verif.XmlWrite
open Verif.XmlParse
open Verif.Xml (Elem localName elem2dict startDict collapse addChild attrEntries textEntry NotList)
open Spec (IsName Named NamedAll Plain PlainAll newlines newlinesAll localPart prefixPart Qualified attrKeys declared
  plainKeys kidKeys textFit isList fits kidsFit rowFits textOf written writtenIn writtenAll visible attrsBack textBack alone
  back backKids backRow group)

/-! ### Visible texts -/

theorem visible_normNl (s : Str) : visible (normNl s) = visible s := by
  induction s using normNl.induct with
  | case1 => rfl
  | case2 l ih =>
    rw [normNl]; simp only [visible, List.any_cons] at ih ⊢
    rw [ih]; rfl
  | case3 l h ih =>
    rw [normNl]
    · simp only [visible, List.any_cons] at ih ⊢; rw [ih]; rfl
    · exact h
  | case4 c l h1 h2 ih =>
    rw [normNl]
    · simp only [visible, List.any_cons] at ih ⊢; rw [ih]
    · exact h1
    · exact h2

theorem textEntry_some (s : Str) : textEntry (someText s) = if visible s then some s else none := by
  cases s with
  | nil => rfl
  | cons c l =>
    simp only [someText, List.isEmpty_cons, Bool.false_eq_true, if_false, textEntry, isSpaceStr, visible,
      Bool.not_false, Bool.true_and]
    have : (!List.all (c :: l) pySpace) = (c :: l).any fun c => !pySpace c := by
      rw [List.not_all_eq_any_not]
    rw [this]
    rfl

/-! ### Attributes -/

theorem attrsOf_cons (env : Env) (k : Str) (v : PyVal) (l : List (Str × PyVal)) : attrsOf env ((k, v) :: l) =
    match k with
    | '@' :: n => (n, attrText env v) :: attrsOf env l
    | _ => attrsOf env l := by
  conv => lhs; unfold attrsOf
  rfl

theorem attrKeys_cons (k : Str) (v : PyVal) (l : List (Str × PyVal)) : attrKeys ((k, v) :: l) =
    match k with
    | '@' :: n => n :: attrKeys l
    | _ => attrKeys l := by
  conv => lhs; unfold attrKeys
  rfl

theorem attrsBack_cons (env : Env) (k : Str) (v : PyVal) (l : List (Str × PyVal)) : attrsBack env ((k, v) :: l) =
    match k with
    | '@' :: n =>
      if (declares n).isSome then attrsBack env l
      else ('@' :: localPart n, .str (attrText env v)) :: attrsBack env l
    | _ => attrsBack env l := by
  conv => lhs; unfold attrsBack
  rfl

theorem attrsOf_keys (env : Env) (d : List (Str × PyVal)) : (attrsOf env d).map Prod.fst = attrKeys d := by
  induction d with
  | nil => rfl
  | cons x l ih =>
    obtain ⟨k, v⟩ := x
    rw [attrsOf_cons, attrKeys_cons]
    cases k with
    | nil => exact ih
    | cons c n =>
      by_cases hc : c = '@'
      · subst hc; simp [ih]
      · split
        · rename_i h; cases h; exact absurd rfl hc
        · exact ih

theorem decl_attrsOf (env : Env) (d : List (Str × PyVal)) : decl (attrsOf env d) = declared d := by
  rw [decl, attrsOf_keys]; rfl

theorem plain_attrsOf (env : Env) (d : List (Str × PyVal)) :
    (plain (attrsOf env d)).map (fun x => ('@' :: x.1, PyVal.str x.2)) = attrsBack env d := by
  induction d with
  | nil => rfl
  | cons x l ih =>
    obtain ⟨k, v⟩ := x
    rw [attrsOf_cons, attrsBack_cons]
    cases k with
    | nil => exact ih
    | cons c n =>
      by_cases hc : c = '@'
      · subst hc
        simp only [plain_cons]
        split
        · exact ih
        · simp [ih]
      · split
        · rename_i h; cases h; exact absurd rfl hc
        · exact ih

theorem plain_keys (env : Env) (d : List (Str × PyVal)) :
    (plain (attrsOf env d)).map Prod.fst = (plainKeys d).map localPart := by
  rw [plain, plainKeys, ← attrsOf_keys env d, List.map_map, List.filter_map, List.map_map]
  rfl

/-! ### The dictionary in front of the children -/

theorem start_eq {a : List (Str × Str)} (hn : ((plain a).map Prod.fst).Nodup)
    (hq : ∀ x ∈ plain a, IsName x.1) (c : Str) (cl : Bool) :
    startDict (plain a) (someText c) cl =
      (plain a).map (fun x => ('@' :: x.1, PyVal.str x.2)) ++
        (if visible c then [(c!"#text", PyVal.str c)]
         else if cl ∧ c!"@lang" ∈ ((plain a).map (fun x => ('@' :: x.1, PyVal.str x.2))).map Prod.fst then [(c!"#text", PyVal.str [])]
         else []) := by
  have hl : ∀ x ∈ plain a, localName x.1 = x.1 := fun x hx => localName_local (hq x hx)
  have hn' : ((plain a).map fun x => localName x.1).Nodup := by
    rw [List.map_congr_left hl]; exact hn
  have he : attrEntries (plain a) = (plain a).map (fun x => ('@' :: x.1, PyVal.str x.2)) := by
    rw [Xml.attrEntries_eq _ hn']
    exact List.map_congr_left fun x hx => by rw [hl x hx]
  have ht := Xml.attrEntries_text hn'
  have ht' := (aget_none _ _).1 ht
  simp only [startDict, textEntry_some]
  rw [he] at ht ht' ⊢
  by_cases hv : visible c = true
  · simp only [hv, if_true]
    rw [aset_of_notMem _ ht']
  · simp only [hv]
    simp only [Bool.and_eq_true, aget_isSome, ht, Option.isNone_none, and_true, Bool.false_eq_true, if_false]
    split
    · rw [aset_of_notMem _ ht']
    · simp

/-! ### Children -/

theorem aset_last {k : Str} {v w : PyVal} {d : List (Str × PyVal)} (h : k ∉ d.map Prod.fst) :
    aset k w (d ++ [(k, v)]) = d ++ [(k, w)] := by
  induction d with
  | nil => simp [aset]
  | cons x l ih =>
    obtain ⟨k', u⟩ := x
    simp only [List.map_cons, List.mem_cons, not_or] at h
    rw [List.cons_append, aset, if_neg (fun e => h.1 e.symm), ih h.2]
    rfl

theorem aget_last {k : Str} {v : PyVal} {d : List (Str × PyVal)} (h : k ∉ d.map Prod.fst) :
    aget k (d ++ [(k, v)]) = some v := by
  rw [aget_append, (aget_none _ _).2 h]; simp [aget]

theorem fold_row (k : Str) (ws : List PyVal) (hw : ∀ w ∈ ws, NotList w) (d : List (Str × PyVal))
    (h : k ∉ d.map Prod.fst) : (ws.map fun w => (k, w)).foldl addChild d = d ++ group k ws := by
  have many : ∀ (ws vs : List PyVal), 2 ≤ vs.length →
      (ws.map fun w => (k, w)).foldl addChild (d ++ [(k, .list vs)]) = d ++ [(k, .list (vs ++ ws))] := by
    intro ws
    induction ws with
    | nil => intro vs _; simp
    | cons w ws ih =>
      intro vs hvs
      rw [List.map_cons, List.foldl_cons]
      have : addChild (d ++ [(k, .list vs)]) (k, w) = d ++ [(k, .list (vs ++ [w]))] := by
        simp only [addChild, aget_last h, aset_last h]
      rw [this, ih _ (by simp; omega)]
      simp
  match ws with
  | [] => simp [group]
  | [w] => simp [group, addChild, (aget_none _ _).2 h, aset_of_notMem _ h]
  | v :: w :: ws =>
    have h1 : addChild d (k, v) = d ++ [(k, v)] := by
      simp [addChild, (aget_none _ _).2 h, aset_of_notMem _ h]
    have h2 : addChild (d ++ [(k, v)]) (k, w) = d ++ [(k, .list [v, w])] := by
      have := hw v (by simp)
      simp only [addChild, aget_last h]
      cases v with
      | list l => exact absurd rfl (this l)
      | _ => simp only [aset_last h]
    rw [List.map_cons, List.map_cons, List.foldl_cons, List.foldl_cons, h1, h2, many _ _ (by simp)]
    rfl

theorem alone_notList {d : List (Str × PyVal)} (h : ∀ v, (c!"#text", v) ∈ d → NotList v) : NotList (alone d) := by
  unfold alone
  split
  · split
    · rename_i hk; subst hk; exact h _ (by simp)
    · intro l h; cases h
  · intro l h; cases h

theorem collapse_alone (d : List (Str × PyVal)) : collapse d = alone d := by
  unfold collapse alone
  split
  · rfl
  · split
    · rename_i h; exact absurd rfl (h _ _)
    · rfl

theorem attrsBack_keys (env : Env) (d : List (Str × PyVal)) : ∀ k ∈ (attrsBack env d).map Prod.fst, ∃ n, k = '@' :: n := by
  rw [← plain_attrsOf, List.map_map]
  intro k hk
  obtain ⟨x, _, rfl⟩ := List.mem_map.1 hk
  exact ⟨_, rfl⟩

theorem textBack_notList (as : List (Str × PyVal)) (s : Str) : ∀ x ∈ textBack as s, NotList x.2 := by
  intro x hx
  unfold textBack at hx
  split at hx
  · simp at hx; subst hx; intro l h; cases h
  · split at hx
    · simp at hx; subst hx; intro l h; cases h
    · simp at hx

theorem group_keys (k : Str) (ws : List PyVal) : ∀ n ∈ (group k ws).map Prod.fst, n = k := by
  intro n hn
  match ws with
  | [] => simp [group] at hn
  | [w] => simpa [group] using hn
  | v :: w :: ws => simpa [group] using hn

theorem backKids_cons (env : Env) (k : Str) (v : PyVal) (l : List (Str × PyVal)) :
    backKids env ((k, v) :: l) = (if isKid k then group (localPart k) (match v with
      | .list r => backRow env r
      | w => [back env w]) else []) ++ backKids env l := by
  cases v <;> rfl

theorem backKids_keys (env : Env) (d : List (Str × PyVal)) :
    ∀ k ∈ (backKids env d).map Prod.fst, k ∈ (kidKeys d).map localPart := by
  induction d with
  | nil => simp [backKids]
  | cons x l ih =>
    obtain ⟨k, v⟩ := x
    intro n hn
    rw [backKids_cons, List.map_append, List.mem_append] at hn
    rw [kidKeys, List.map_cons, List.filter_cons]
    rcases hn with hn | hn
    · by_cases hk : isKid k = true
      · simp only [hk, if_true] at hn ⊢
        rw [List.map_cons]
        have : n = localPart k := by
          exact group_keys _ _ _ hn
        rw [this]; simp
      · simp [hk] at hn
    · have := ih n hn
      rw [kidKeys] at this
      split
      · rw [List.map_cons]; exact List.mem_cons_of_mem _ this
      · exact this

theorem kid_text {n : Str} (h : IsName n) : n ≠ c!"#text" := by
  rintro rfl
  exact absurd h (by decide)

theorem kidsFit_names {ps : List Str} {d : List (Str × PyVal)} (h : kidsFit ps d = true) :
    ∀ k ∈ kidKeys d, Qualified ps k := by
  induction d with
  | nil => simp [kidKeys]
  | cons x l ih =>
    obtain ⟨k, v⟩ := x
    rw [kidsFit, Bool.and_eq_true] at h
    intro n hn
    rw [kidKeys, List.map_cons, List.filter_cons] at hn
    split at hn
    · rename_i hk
      rcases List.mem_cons.1 hn with rfl | hn
      · have := h.1
        simp only at hk
        rw [hk] at this
        simp at this
        exact this.1
      · exact ih h.2 n hn
    · exact ih h.2 n hn

theorem back_notList (env : Env) (ps : List Str) (v : PyVal) (h : fits ps v = true) : NotList (back env v) := by
  unfold back
  split
  · rename_i d
    rw [fits] at h
    simp only [Bool.and_eq_true, decide_eq_true_eq] at h
    apply alone_notList
    intro w hw
    simp only [List.mem_append] at hw
    rcases hw with (hw | hw) | hw
    · obtain ⟨n, hn⟩ := attrsBack_keys env d _ (List.mem_map.2 ⟨_, hw, rfl⟩)
      simp at hn
    · split at hw
      · exact textBack_notList _ _ _ hw
      · simp at hw
    · have := backKids_keys env d _ (List.mem_map.2 ⟨_, hw, rfl⟩)
      obtain ⟨k, hk, he⟩ := List.mem_map.1 this
      exact absurd he (kid_text (kidsFit_names h.2 k hk).2.1)
  · apply alone_notList
    intro w hw
    exact textBack_notList _ _ _ hw

/-! ### All children in a row -/

/-- The values of one key. -/
def values (env : Env) (v : PyVal) : List PyVal :=
  match v with
  | .list r => backRow env r
  | w => [back env w]

/-- The children one by one. -/
def entries (env : Env) : List (Str × PyVal) → List (Str × PyVal)
  | [] => []
  | (k, v) :: l => (if isKid k then (values env v).map fun w => (localPart k, w) else []) ++ entries env l

theorem backRow_map (env : Env) (l : List PyVal) : backRow env l = l.map (back env) := by
  induction l with
  | nil => rfl
  | cons v l ih => rw [backRow, ih]; rfl

theorem rowFits_mem {ps : List Str} {l : List PyVal} (h : rowFits ps l = true) :
    ∀ v ∈ l, isList v = false ∧ fits ps v = true := by
  induction l with
  | nil => simp
  | cons v l ih =>
    rw [rowFits, Bool.and_eq_true, Bool.and_eq_true] at h
    intro w hw
    rcases List.mem_cons.1 hw with rfl | hw
    · exact ⟨by simpa using h.1.1, h.1.2⟩
    · exact ih h.2 w hw

theorem values_notList (env : Env) {ps : List Str} {v : PyVal} (h : fits ps v = true) :
    ∀ w ∈ values env v, NotList w := by
  have hb := back_notList env ps v h
  intro w hw
  unfold values at hw
  split at hw
  · rename_i r
    rw [backRow_map] at hw
    rw [fits] at h
    obtain ⟨x, hx, rfl⟩ := List.mem_map.1 hw
    exact back_notList env ps x (rowFits_mem h x hx).2
  · rw [List.mem_singleton] at hw
    rw [hw]; exact hb

theorem fold_entries (env : Env) {ps : List Str} (d : List (Str × PyVal)) (h : kidsFit ps d = true)
    (hn : ((kidKeys d).map localPart).Nodup) (D : List (Str × PyVal))
    (hD : ∀ k ∈ (kidKeys d).map localPart, k ∉ D.map Prod.fst) :
    (entries env d).foldl addChild D = D ++ backKids env d := by
  induction d generalizing D with
  | nil => simp [entries, backKids]
  | cons x l ih =>
    obtain ⟨k, v⟩ := x
    rw [kidsFit, Bool.and_eq_true] at h
    rw [entries, backKids_cons, List.foldl_append]
    by_cases hk : isKid k = true
    · have hkk : kidKeys ((k, v) :: l) = k :: kidKeys l := by
        simp only [kidKeys, List.map_cons, List.filter_cons, hk, if_true]
      rw [hkk, List.map_cons, List.nodup_cons] at hn
      rw [hkk, List.map_cons] at hD
      have hf : fits ps v = true := by
        have := h.1; rw [hk] at this; simp at this; exact this.2
      simp only [hk, if_true]
      rw [fold_row _ _ (values_notList env hf) _ (hD _ (by simp)), ih h.2 hn.2]
      · rw [List.append_assoc]; rfl
      · intro n hm
        rw [List.map_append, List.mem_append, not_or]
        refine ⟨hD n (by simp [hm]), fun hg => ?_⟩
        have := group_keys _ _ _ hg
        subst this
        exact hn.1 hm
    · have hkk : kidKeys ((k, v) :: l) = kidKeys l := by
        simp only [kidKeys, List.map_cons, List.filter_cons, hk]
        rfl
      rw [hkk] at hn hD
      simp only [hk, Bool.false_eq_true, if_false, List.foldl_nil, List.nil_append]
      exact ih h.2 hn D hD

theorem group_nil (k : Str) (ws : List PyVal) : group k ws = [] ↔ ws = [] := by
  match ws with
  | [] => simp [group]
  | [w] => simp [group]
  | v :: w :: ws => simp [group]

theorem backKids_isEmpty (env : Env) (d : List (Str × PyVal)) :
    (backKids env d).isEmpty = (entries env d).isEmpty := by
  rw [Bool.eq_iff_iff, List.isEmpty_iff, List.isEmpty_iff]
  induction d with
  | nil => simp [entries, backKids]
  | cons x l ih =>
    obtain ⟨k, v⟩ := x
    rw [entries, backKids_cons, List.append_eq_nil_iff, List.append_eq_nil_iff, ih]
    apply and_congr_left
    intro _
    split
    · rw [group_nil, List.map_eq_nil_iff]; rfl
    · rfl

/-! ### Texts -/

theorem cdata_fit (env : Env) {o : Option PyVal} (h : textFit o = true) :
    cdata o = .ok (textOf env (o.getD .none)) := by
  cases o with
  | none => rfl
  | some v => cases v <;> first | rfl | simp [textFit] at h

/-- The texts of one entry. -/
def textsOf (env : Env) (k : Str) (v : PyVal) : List Str :=
  match k with
  | '@' :: _ => [attrText env v]
  | _ => if k = c!"#text" then [textOf env v] else written env v

theorem writtenIn_mem (env : Env) (d : List (Str × PyVal)) (s : Str) :
    s ∈ writtenIn env d ↔ ∃ x ∈ d, s ∈ textsOf env x.1 x.2 := by
  induction d with
  | nil => simp [writtenIn]
  | cons x l ih =>
    obtain ⟨k, v⟩ := x
    have : writtenIn env ((k, v) :: l) = textsOf env k v ++ writtenIn env l := rfl
    rw [this, List.mem_append, ih]
    simp only [List.mem_cons, exists_eq_or_imp]

theorem writtenAll_mem (env : Env) (l : List PyVal) (s : Str) :
    s ∈ writtenAll env l ↔ ∃ v ∈ l, s ∈ written env v := by
  induction l with
  | nil => simp [writtenAll]
  | cons v l ih => rw [writtenAll, List.mem_append, ih]; simp

theorem attrsOf_mem (env : Env) (d : List (Str × PyVal)) (x : Str × Str) :
    x ∈ attrsOf env d ↔ ∃ v, ('@' :: x.1, v) ∈ d ∧ x.2 = attrText env v := by
  induction d with
  | nil => simp [attrsOf]
  | cons y l ih =>
    obtain ⟨k, v⟩ := y
    rw [attrsOf_cons]
    split
    · rename_i n
      rw [List.mem_cons, ih]
      constructor
      · rintro (rfl | ⟨w, hw, he⟩)
        · exact ⟨v, by simp, rfl⟩
        · exact ⟨w, by simp [hw], he⟩
      · rintro ⟨w, hw, he⟩
        rcases List.mem_cons.1 hw with hw | hw
        · left
          simp only [Prod.mk.injEq, List.cons.injEq, true_and] at hw
          obtain ⟨rfl, rfl⟩ := hw
          exact Prod.ext rfl he
        · exact .inr ⟨w, hw, he⟩
    · rename_i hk
      rw [ih]
      constructor
      · rintro ⟨w, hw, he⟩; exact ⟨w, by simp [hw], he⟩
      · rintro ⟨w, hw, he⟩
        rcases List.mem_cons.1 hw with hw | hw
        · simp only [Prod.mk.injEq] at hw
          exact absurd hw.1.symm (hk _)
        · exact ⟨w, hw, he⟩

theorem attrKeys_nodup {d : List (Str × PyVal)} (h : (d.map Prod.fst).Nodup) : (attrKeys d).Nodup := by
  have mem : ∀ (l : List (Str × PyVal)) (n : Str), n ∈ attrKeys l → '@' :: n ∈ l.map Prod.fst := by
    intro l n hn
    rw [← attrsOf_keys ⟨fun _ => []⟩] at hn
    obtain ⟨x, hx, rfl⟩ := List.mem_map.1 hn
    obtain ⟨v, hv, _⟩ := (attrsOf_mem _ _ _).1 hx
    exact List.mem_map.2 ⟨_, hv, rfl⟩
  induction d with
  | nil => exact List.nodup_nil
  | cons x l ih =>
    obtain ⟨k, v⟩ := x
    rw [List.map_cons, List.nodup_cons] at h
    rw [attrKeys_cons]
    split
    · rw [List.nodup_cons]
      exact ⟨fun hn => h.1 (mem l _ hn), ih h.2⟩
    · exact ih h.2

theorem qualified_mono {ps qs : List Str} {n : Str} (h : Qualified ps n) : Qualified (qs ++ ps) n := by
  obtain ⟨h1, h2, h3, h4⟩ := h
  refine ⟨h1, h2, h3, ?_⟩
  rcases h4 with h4 | h4
  · exact .inl h4
  · exact .inr ⟨h4.1, List.mem_append_right _ h4.2⟩

theorem isKid_cases (k : Str) : (∃ n, k = '@' :: n) ∨ k = c!"#text" ∨ isKid k = true := by
  unfold isKid
  split
  · exact .inl ⟨_, rfl⟩
  · by_cases h : k = c!"#text"
    · exact .inr (.inl h)
    · exact .inr (.inr (by simp [h]))

theorem textsOf_kid (env : Env) {k : Str} (h : isKid k = true) (v : PyVal) : textsOf env k v = written env v := by
  unfold textsOf
  unfold isKid at h
  split at h
  · cases h
  · have : ¬ k = c!"#text" := by simpa using h
    split
    · rename_i h'; exact absurd rfl (h' _)
    · rw [if_neg this]

/-- The texts of a dictionary: those of its attributes, its own, and those of its children. -/
theorem writtenIn_iff (env : Env) {d : List (Str × PyVal)} (hd : (d.map Prod.fst).Nodup) (P : Str → Prop) (hP : P []) :
    (∀ s ∈ writtenIn env d, P s) ↔
      (∀ x ∈ attrsOf env d, P x.2) ∧ P (textOf env ((aget c!"#text" d).getD .none)) ∧
      (∀ x ∈ d, isKid x.1 = true → ∀ s ∈ written env x.2, P s) := by
  constructor
  · intro h
    refine ⟨?_, ?_, ?_⟩
    · intro x hx
      obtain ⟨v, hv, he⟩ := (attrsOf_mem env d x).1 hx
      exact h _ ((writtenIn_mem env d _).2 ⟨_, hv, by simp [textsOf, he]⟩)
    · cases hg : aget c!"#text" d with
      | none => exact hP
      | some v => exact h _ ((writtenIn_mem env d _).2 ⟨_, aget_mem hg, by simp [textsOf]⟩)
    · intro x hx hk s hs
      exact h _ ((writtenIn_mem env d _).2 ⟨x, hx, by rw [textsOf_kid env hk]; exact hs⟩)
  · rintro ⟨h1, h2, h3⟩ s hs
    obtain ⟨⟨k, v⟩, hx, hs⟩ := (writtenIn_mem env d _).1 hs
    rcases isKid_cases k with ⟨n, rfl⟩ | rfl | hk
    · have : s = attrText env v := by simpa [textsOf] using hs
      rw [this]
      exact h1 (n, attrText env v) ((attrsOf_mem env d _).2 ⟨v, hx, rfl⟩)
    · have : s = textOf env v := by simpa [textsOf] using hs
      rw [this]
      rw [aget_eq_of_mem hd hx] at h2
      exact h2
    · rw [textsOf_kid env hk] at hs
      exact h3 _ hx hk s hs

/-! ### The tree of a value -/

theorem namedAll_append (l m : List Tree) : NamedAll (l ++ m) ↔ NamedAll l ∧ NamedAll m := by
  induction l with
  | nil => simp [NamedAll]
  | cons t l ih => rw [List.cons_append, NamedAll, NamedAll, ih, and_assoc]

theorem boundAll_append (ps : List Str) (l m : List Tree) : BoundAll ps (l ++ m) ↔ BoundAll ps l ∧ BoundAll ps m := by
  induction l with
  | nil => simp [BoundAll]
  | cons t l ih => rw [List.cons_append, BoundAll, BoundAll, ih, and_assoc]

theorem plainAll_append (l m : List Tree) : PlainAll (l ++ m) ↔ PlainAll l ∧ PlainAll m := by
  induction l with
  | nil => simp [PlainAll]
  | cons t l ih => rw [List.cons_append, PlainAll, PlainAll, ih, and_assoc]

theorem newlinesAll_append (l m : List Tree) : newlinesAll (l ++ m) = newlinesAll l ++ newlinesAll m := by
  induction l with
  | nil => rfl
  | cons t l ih => rw [List.cons_append, newlinesAll, newlinesAll, ih]; rfl

theorem vals_append (l m : List Tree) : vals (l ++ m) = vals l ++ vals m := by
  induction l with
  | nil => rfl
  | cons t l ih => rw [List.cons_append, vals, vals, ih]; rfl

theorem name_newlines (t : Tree) : (newlines t).name = t.name := by cases t; rfl

theorem vals_isEmpty (l : List Tree) : (vals l).isEmpty = l.isEmpty := by cases l <;> rfl

/-- What holds of the element of a value. -/
def Good (env : Env) (ps : List Str) (key : Str) (v : PyVal) (t : Tree) : Prop :=
  t.name = key ∧ (Qualified ps key → Named t ∧ Bound ps t) ∧
    (Plain t ↔ ∀ s ∈ written env v, s.all xmlChar = true) ∧ val (newlines t) = back env v

theorem good_text (env : Env) (ps : List Str) (key : Str) (v : PyVal) (hw : written env v = [textOf env v])
    (hb : back env v = alone (textBack [] (textOf env v))) :
    Good env ps key v (.mk key [] [] (textOf env v)) := by
  refine ⟨rfl, ?_, ?_, ?_⟩
  · intro hq
    rw [Named, Bound, NamedAll, BoundAll]
    exact ⟨⟨hq.1, by simp, by simp, trivial⟩, by simpa [decl] using hq, by simp, by simp [plain], trivial⟩
  · rw [Plain, hw, PlainAll]; simp
  · have hs := start_eq (a := []) (by simp [plain]) (by simp [plain]) (normNl (textOf env v)) true
    rw [newlines, newlinesAll, val, vals, hb, List.foldl_nil, List.isEmpty_nil, if_pos rfl, hs, collapse_alone, visible_normNl]
    simp [plain, textBack]

theorem good_dict (env : Env) (ps : List Str) (key : Str) (d : List (Str × PyVal)) (h : fits ps (.dict d) = true)
    (ks : List Tree) (hN : NamedAll ks) (hB : BoundAll (declared d ++ ps) ks)
    (hP : PlainAll ks ↔ ∀ x ∈ d, isKid x.1 = true → ∀ s ∈ written env x.2, s.all xmlChar = true)
    (hV : vals (newlinesAll ks) = entries env d) :
    Good env ps key (.dict d) (.mk key (attrsOf env d) ks (textOf env ((aget c!"#text" d).getD .none))) := by
  rw [fits] at h
  simp only [Bool.and_eq_true, decide_eq_true_eq] at h
  obtain ⟨⟨⟨⟨⟨⟨h1, h2⟩, h3⟩, h4⟩, h5⟩, h6⟩, h7⟩ := h
  have hq : ∀ x ∈ attrsOf env d, declares x.1 = none → Qualified (declared d ++ ps) x.1 := by
    intro x hx hd
    apply h3
    rw [plainKeys, List.mem_filter, ← attrsOf_keys env]
    exact ⟨List.mem_map.2 ⟨x, hx, rfl⟩, by simp [hd]⟩
  have hnd : ((plain (attrsOf env d)).map Prod.fst).Nodup := by rw [plain_keys]; exact h4
  refine ⟨rfl, ?_, ?_, ?_⟩
  · intro hk
    rw [Named, Bound, decl_attrsOf, attrsOf_keys]
    refine ⟨⟨hk.1, ?_, attrKeys_nodup h1, hN⟩, qualified_mono hk, hq, hnd, hB⟩
    intro x hx
    apply h2
    rw [← attrsOf_keys env]
    exact List.mem_map.2 ⟨x, hx, rfl⟩
  · rw [Plain, written, writtenIn_iff env h1 (fun s => s.all xmlChar = true) rfl, hP]
  · have hpl : ∀ x ∈ plain (attrsOf env d), IsName x.1 := by
      intro x hx
      rw [plain, List.mem_map] at hx
      obtain ⟨y, hy, rfl⟩ := hx
      rw [List.mem_filter] at hy
      exact (hq y hy.1 (by simpa using hy.2)).2.1
    have hs := fun c cl => start_eq (a := attrsOf env d) hnd hpl c cl
    have hkeys : ∀ k ∈ (kidKeys d).map localPart, ∀ c cl,
        k ∉ (startDict (plain (attrsOf env d)) (someText c) cl).map Prod.fst := by
      intro k hk c cl hm
      obtain ⟨n, hn, rfl⟩ := List.mem_map.1 hk
      have hnm := (kidsFit_names h7 n hn).2.1
      have hxn := isName_Name hnm
      rw [hs, List.map_append, List.mem_append] at hm
      rcases hm with hm | hm
      · rw [List.map_map] at hm
        obtain ⟨y, _, hy⟩ := List.mem_map.1 hm
        exact Xml.name_ne_at hxn _ hy.symm
      · have : localPart n = c!"#text" := by
          split at hm
          · simpa using hm
          · split at hm
            · simpa using hm
            · simp at hm
        exact kid_text hnm this
    have hemp : (newlinesAll ks).isEmpty = (backKids env d).isEmpty := by
      rw [backKids_isEmpty, ← hV, vals_isEmpty]
    rw [newlines, val, hV, fold_entries env d h7 h5 _ (fun k hk => hkeys k hk _ _), hs, collapse_alone, back, plain_attrsOf,
      hemp]
    cases hE : (backKids env d).isEmpty with
    | true =>
      simp only [if_true, visible_normNl, textBack, true_and]
    | false => simp [visible]

/-- The elements of one key. -/
def rowOf (env : Env) (k : Str) (v : PyVal) : Py (List Tree) :=
  match v with
  | .list r => row env k r
  | w => single (tree env k w)

theorem rowOf_one (env : Env) (k : Str) {v : PyVal} (h : isList v = false) : rowOf env k v = single (tree env k v) := by
  unfold rowOf
  split
  · simp [isList] at h
  · rfl

theorem kids_cons (env : Env) (k : Str) (v : PyVal) (l : List (Str × PyVal)) :
    kids env ((k, v) :: l) = if isKid k then joined (rowOf env k v) (kids env l) else kids env l := by
  cases v <;> rfl

mutual
theorem tree_fits (env : Env) (v : PyVal) (hl : isList v = false) (ps : List Str) (h : fits ps v = true) (key : Str) :
    ∃ t, tree env key v = .ok t ∧ Good env ps key v t := by
  match v with
  | .dict d =>
    have h' := h
    rw [fits] at h'
    simp only [Bool.and_eq_true, decide_eq_true_eq] at h'
    obtain ⟨ks, hk, hN, hB, hP, hV⟩ := kids_fits env d _ h'.2
    refine ⟨_, ?_, good_dict env ps key d h ks hN hB hP hV⟩
    rw [tree, hk, cdata_fit env h'.1.2]
    rfl
  | .list l => simp [isList] at hl
  | .none => exact ⟨_, rfl, good_text env ps key .none rfl rfl⟩
  | .bool b => exact ⟨_, rfl, good_text env ps key (.bool b) rfl rfl⟩
  | .str s => exact ⟨_, rfl, good_text env ps key (.str s) rfl rfl⟩
  | .int i => exact ⟨_, rfl, good_text env ps key (.int i) rfl rfl⟩
  | .float a b => exact ⟨_, rfl, good_text env ps key (.float a b) rfl rfl⟩
  | .inf => exact ⟨_, rfl, good_text env ps key .inf rfl rfl⟩
  | .ninf => exact ⟨_, rfl, good_text env ps key .ninf rfl rfl⟩
  | .nan => exact ⟨_, rfl, good_text env ps key .nan rfl rfl⟩
  | .opaque n => exact ⟨_, rfl, good_text env ps key (.opaque n) rfl rfl⟩
theorem kids_fits (env : Env) (d : List (Str × PyVal)) (ps : List Str) (h : kidsFit ps d = true) :
    ∃ ks, kids env d = .ok ks ∧ NamedAll ks ∧ BoundAll ps ks ∧
      (PlainAll ks ↔ ∀ x ∈ d, isKid x.1 = true → ∀ s ∈ written env x.2, s.all xmlChar = true) ∧
      vals (newlinesAll ks) = entries env d := by
  match d with
  | [] => exact ⟨[], rfl, trivial, trivial, by simp [PlainAll], rfl⟩
  | (k, v) :: l =>
    rw [kidsFit, Bool.and_eq_true] at h
    obtain ⟨us, u1, u2, u3, u4, u5⟩ := kids_fits env l ps h.2
    by_cases hk : isKid k = true
    · have hq : Qualified ps k ∧ fits ps v = true := by
        have := h.1; rw [hk] at this; simpa using this
      have main : ∃ ts, rowOf env k v = .ok ts ∧ NamedAll ts ∧ BoundAll ps ts ∧
          (PlainAll ts ↔ ∀ s ∈ written env v, s.all xmlChar = true) ∧
          vals (newlinesAll ts) = (values env v).map fun w => (localPart k, w) := by
        by_cases hl : isList v = true
        · match v with
          | .list r =>
            have hf := hq.2
            rw [fits] at hf
            obtain ⟨ts, t1, t2, t3, t4, t5⟩ := row_fits env r ps hf k hq.1
            exact ⟨ts, t1, t2, t3, t4, t5⟩
        · have hl' : isList v = false := by simpa using hl
          obtain ⟨t, ht, g1, g2, g3, g4⟩ := tree_fits env v hl' ps hq.2 k
          have hv : values env v = [back env v] := by
            unfold values
            split
            · simp [isList] at hl
            · rfl
          refine ⟨[t], ?_, ⟨(g2 hq.1).1, trivial⟩, ⟨(g2 hq.1).2, trivial⟩, ?_, ?_⟩
          · rw [rowOf_one env k hl', ht]; rfl
          · rw [PlainAll, PlainAll, and_true]; exact g3
          · rw [newlinesAll, newlinesAll, vals, vals, name_newlines, g1, g4, hv]; rfl
      obtain ⟨ts, t1, t2, t3, t4, t5⟩ := main
      refine ⟨ts ++ us, ?_, (namedAll_append _ _).2 ⟨t2, u2⟩, (boundAll_append _ _ _).2 ⟨t3, u3⟩, ?_, ?_⟩
      · rw [kids_cons, if_pos hk, t1, u1]; rfl
      · rw [plainAll_append, t4, u4]
        simp only [List.mem_cons, forall_eq_or_imp]
        exact and_congr_left fun _ => ⟨fun h _ => h, fun h => h hk⟩
      · rw [newlinesAll_append, vals_append, t5, u5, entries, if_pos hk]
    · refine ⟨us, ?_, u2, u3, ?_, ?_⟩
      · rw [kids_cons, if_neg hk, u1]
      · rw [u4]
        simp only [List.mem_cons, forall_eq_or_imp]
        exact ⟨fun h => ⟨fun h' => absurd h' hk, h⟩, fun h => h.2⟩
      · rw [u5, entries, if_neg hk]; rfl
theorem row_fits (env : Env) (l : List PyVal) (ps : List Str) (h : rowFits ps l = true) (key : Str)
    (hq : Qualified ps key) :
    ∃ ts, row env key l = .ok ts ∧ NamedAll ts ∧ BoundAll ps ts ∧
      (PlainAll ts ↔ ∀ s ∈ writtenAll env l, s.all xmlChar = true) ∧
      vals (newlinesAll ts) = (backRow env l).map fun w => (localPart key, w) := by
  match l with
  | [] => exact ⟨[], rfl, trivial, trivial, by simp [PlainAll, writtenAll], rfl⟩
  | v :: l =>
    rw [rowFits, Bool.and_eq_true, Bool.and_eq_true] at h
    obtain ⟨t, ht, g1, g2, g3, g4⟩ := tree_fits env v (by simpa using h.1.1) ps h.1.2 key
    obtain ⟨us, u1, u2, u3, u4, u5⟩ := row_fits env l ps h.2 key hq
    refine ⟨t :: us, ?_, ⟨(g2 hq).1, u2⟩, ⟨(g2 hq).2, u3⟩, ?_, ?_⟩
    · rw [row, ht, u1]; rfl
    · rw [PlainAll, g3, u4, writtenAll]
      simp only [List.mem_append]
      constructor
      · rintro ⟨h1, h2⟩ s (hs | hs)
        · exact h1 s hs
        · exact h2 s hs
      · intro h; exact ⟨fun s hs => h s (.inl hs), fun s hs => h s (.inr hs)⟩
    · rw [newlinesAll, vals, name_newlines, g1, g4, u5, backRow]; rfl
end

end Verif.XmlWrite
