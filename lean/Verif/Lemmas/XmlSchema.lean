/-
The dictionaries of the formats stand for elements.
-/
import Verif.Model.XmlFile
import Verif.Lemmas.XmlBack
import Verif.Props.Schema

namespace Verif.XmlWrite
open Verif.XmlParse
open Verif.DotDict
open Verif.Schema
open Spec (IsName localPart prefixPart Qualified attrKeys declared plainKeys kidKeys textFit isList fits kidsFit rowFits)

/-! ### More prefixes -/

theorem qualified_sub {ps qs : List Str} (h : ∀ p ∈ ps, p ∈ qs) {n : Str} (hn : Qualified ps n) : Qualified qs n := by
  obtain ⟨h1, h2, h3, h4⟩ := hn
  refine ⟨h1, h2, h3, ?_⟩
  rcases h4 with h4 | h4
  · exact .inl h4
  · exact .inr ⟨h4.1, h _ h4.2⟩

theorem sub_append {ps qs : List Str} (a : List Str) (h : ∀ p ∈ ps, p ∈ qs) : ∀ p ∈ a ++ ps, p ∈ a ++ qs := by
  intro p hp
  rcases List.mem_append.1 hp with hp | hp
  · exact List.mem_append_left _ hp
  · exact List.mem_append_right _ (h p hp)

mutual
theorem fits_mono (v : PyVal) (ps qs : List Str) (h : ∀ p ∈ ps, p ∈ qs) (hf : fits ps v = true) : fits qs v = true := by
  match v with
  | .dict d =>
    rw [fits] at hf ⊢
    simp only [Bool.and_eq_true, decide_eq_true_eq] at hf ⊢
    obtain ⟨⟨⟨⟨⟨⟨h1, h2⟩, h3⟩, h4⟩, h5⟩, h6⟩, h7⟩ := hf
    exact ⟨⟨⟨⟨⟨⟨h1, h2⟩, fun k hk => qualified_sub (sub_append _ h) (h3 k hk)⟩, h4⟩, h5⟩, h6⟩,
      kidsFit_mono d _ _ (sub_append _ h) h7⟩
  | .list l => rw [fits] at hf ⊢; exact rowFits_mono l ps qs h hf
  | .none => rfl
  | .bool _ => rfl
  | .int _ => rfl
  | .float _ _ => rfl
  | .inf => rfl
  | .ninf => rfl
  | .nan => rfl
  | .str _ => rfl
  | .opaque _ => rfl
theorem kidsFit_mono (d : List (Str × PyVal)) (ps qs : List Str) (h : ∀ p ∈ ps, p ∈ qs) (hf : kidsFit ps d = true) :
    kidsFit qs d = true := by
  match d with
  | [] => rfl
  | (k, v) :: l =>
    rw [kidsFit] at hf ⊢
    simp only [Bool.and_eq_true, Bool.or_eq_true, decide_eq_true_eq] at hf ⊢
    refine ⟨?_, kidsFit_mono l ps qs h hf.2⟩
    rcases hf.1 with h1 | h1
    · exact .inl h1
    · exact .inr ⟨qualified_sub h h1.1, fits_mono v ps qs h h1.2⟩
theorem rowFits_mono (l : List PyVal) (ps qs : List Str) (h : ∀ p ∈ ps, p ∈ qs) (hf : rowFits ps l = true) :
    rowFits qs l = true := by
  match l with
  | [] => rfl
  | v :: l =>
    rw [rowFits] at hf ⊢
    simp only [Bool.and_eq_true] at hf ⊢
    exact ⟨⟨hf.1.1, fits_mono v ps qs h hf.1.2⟩, rowFits_mono l ps qs h hf.2⟩
end

/-! ### Some of the fields of a class -/

theorem attrKeys_mem (d : List (Str × PyVal)) (n : Str) : n ∈ attrKeys d ↔ '@' :: n ∈ d.map Prod.fst := by
  rw [← attrsOf_keys ⟨fun _ => []⟩]
  constructor
  · intro h
    obtain ⟨x, hx, rfl⟩ := List.mem_map.1 h
    obtain ⟨v, hv, _⟩ := (attrsOf_mem _ _ _).1 hx
    exact List.mem_map.2 ⟨_, hv, rfl⟩
  · intro h
    obtain ⟨⟨k, v⟩, hx, hk⟩ := List.mem_map.1 h
    simp only at hk
    subst hk
    exact List.mem_map.2 ⟨(n, _), (attrsOf_mem ⟨fun _ => []⟩ d (n, _)).2 ⟨v, hx, rfl⟩, rfl⟩

theorem nodup_map_sub {f : Str → Str} {l m : List Str} (hm : (m.map f).Nodup) (hl : l.Nodup) (h : ∀ x ∈ l, x ∈ m) :
    (l.map f).Nodup := by
  induction l with
  | nil => exact List.nodup_nil
  | cons x l ih =>
    rw [List.nodup_cons] at hl
    rw [List.map_cons, List.nodup_cons]
    refine ⟨?_, ih hl.2 fun y hy => h y (by simp [hy])⟩
    intro hx
    obtain ⟨y, hy, he⟩ := List.mem_map.1 hx
    have := inj_of_nodup hm y (h y (by simp [hy])) x (h x (by simp)) he
    subst this
    exact hl.1 hy

theorem kidsFit_of {ps : List Str} {d : List (Str × PyVal)}
    (h : ∀ x ∈ d, isKid x.1 = true → Qualified ps x.1 ∧ fits ps x.2 = true) : kidsFit ps d = true := by
  induction d with
  | nil => rfl
  | cons x l ih =>
    obtain ⟨k, v⟩ := x
    rw [kidsFit]
    simp only [Bool.and_eq_true, Bool.or_eq_true, decide_eq_true_eq]
    refine ⟨?_, ih fun y hy => h y (by simp [hy])⟩
    by_cases hk : isKid k = true
    · exact .inr (h (k, v) (by simp) hk)
    · exact .inl (by simpa using hk)

theorem fits_sub {ps : List Str} {N D : List (Str × PyVal)} (hN : fits ps (.dict N) = true) (hd : declared N = [])
    (hnd : (D.map Prod.fst).Nodup) (hsub : ∀ k ∈ D.map Prod.fst, k ∈ N.map Prod.fst)
    (ht : textFit (aget c!"#text" D) = true) (hv : ∀ x ∈ D, isKid x.1 = true → fits ps x.2 = true) :
    fits ps (.dict D) = true := by
  rw [fits] at hN ⊢
  simp only [Bool.and_eq_true, decide_eq_true_eq] at hN ⊢
  obtain ⟨⟨⟨⟨⟨⟨h1, h2⟩, h3⟩, h4⟩, h5⟩, h6⟩, h7⟩ := hN
  have hA : ∀ k ∈ attrKeys D, k ∈ attrKeys N := by
    intro k hk
    rw [attrKeys_mem] at hk ⊢
    exact hsub _ hk
  have hP : ∀ k ∈ plainKeys D, k ∈ plainKeys N := by
    intro k hk
    rw [plainKeys, List.mem_filter] at hk ⊢
    exact ⟨hA k hk.1, hk.2⟩
  have hK : ∀ k ∈ kidKeys D, k ∈ kidKeys N := by
    intro k hk
    rw [kidKeys, List.mem_filter] at hk ⊢
    exact ⟨hsub k hk.1, hk.2⟩
  have hdD : declared D = [] := by
    rw [declared, List.filterMap_eq_nil_iff] at hd ⊢
    exact fun k hk => hd k (hA k hk)
  have hPn : (plainKeys D).Nodup := (attrKeys_nodup hnd).filter _
  have hKn : (kidKeys D).Nodup := hnd.filter _
  rw [hd] at h3 h7
  rw [hdD]
  refine ⟨⟨⟨⟨⟨⟨hnd, fun k hk => h2 k (hA k hk)⟩, fun k hk => h3 k (hP k hk)⟩, nodup_map_sub h4 hPn hP⟩,
    nodup_map_sub h5 hKn hK⟩, ht⟩, ?_⟩
  apply kidsFit_of
  intro x hx hk
  refine ⟨?_, hv x hx hk⟩
  apply kidsFit_names h7
  apply hK
  rw [kidKeys, List.mem_filter]
  exact ⟨List.mem_map.2 ⟨x, hx, rfl⟩, hk⟩

/-! ### Classes -/

/-- The names of the fields of a class, with nothing. -/
def blank (fields : List (Key × Field Str)) : List (Str × PyVal) := fields.map fun e => (getName e.1 e.2, .none)

/-- The names of a class are those of an element, none declares a prefix, and only texts are written as the text. -/
def namesFit (ps : List Str) (fields : List (Key × Field Str)) : Bool :=
  fits ps (.dict (blank fields)) && decide (declared (blank fields) = []) &&
  fields.all fun e => decide (getName e.1 e.2 = c!"#text" →
    e.2.xmlType = some c!"text" ∧ (match e.2.type with | .leaf _ => true | .sub _ => false) = true)

theorem outItems_keys (l : List (Str × Out PyVal)) : (outItems l).map Prod.fst = l.map Prod.fst := by
  induction l with
  | nil => rfl
  | cons x l ih => obtain ⟨k, o⟩ := x; rw [outItems, List.map_cons, ih]; rfl

theorem outItems_mem {l : List (Str × Out PyVal)} {x : Str × PyVal} (h : x ∈ outItems l) :
    ∃ o, (x.1, o) ∈ l ∧ x.2 = outVal o := by
  induction l with
  | nil => simp [outItems] at h
  | cons y l ih =>
    obtain ⟨k, o⟩ := y
    rw [outItems] at h
    rcases List.mem_cons.1 h with rfl | h
    · exact ⟨o, by simp, rfl⟩
    · obtain ⟨o', h1, h2⟩ := ih h
      exact ⟨o', by simp [h1], h2⟩

theorem rowFits_of {ps : List Str} {l : List PyVal} (h : ∀ v ∈ l, isList v = false ∧ fits ps v = true) :
    rowFits ps l = true := by
  induction l with
  | nil => rfl
  | cons v l ih =>
    rw [rowFits]
    simp only [Bool.and_eq_true]
    exact ⟨⟨by simpa using (h v (by simp)).1, (h v (by simp)).2⟩, ih fun w hw => h w (by simp [hw])⟩

theorem outRow_mem {l : List (Out PyVal)} {x : PyVal} (h : x ∈ outRow l) : ∃ o ∈ l, x = outVal o := by
  induction l with
  | nil => simp [outRow] at h
  | cons y l ih =>
    rw [outRow] at h
    rcases List.mem_cons.1 h with rfl | h
    · exact ⟨y, by simp, rfl⟩
    · obtain ⟨o', h1, h2⟩ := ih h
      exact ⟨o', by simp [h1], h2⟩

theorem forall₂_right {α β : Type} {r : α → β → Prop} {l : List α} {m : List β} (h : List.Forall₂ r l m) {b : β} (hb : b ∈ m) :
    ∃ a ∈ l, r a b := by
  induction h with
  | nil => simp at hb
  | cons h1 _ ih =>
    rcases List.mem_cons.1 hb with rfl | hb
    · exact ⟨_, by simp, h1⟩
    · obtain ⟨a, ha, h⟩ := ih hb; exact ⟨a, by simp [ha], h⟩

theorem forall₂_keys {α β γ : Type} {r : α → β → Prop} {f : α → γ} {g : β → γ} (hr : ∀ a b, r a b → f a = g b)
    {l : List α} {m : List β} (h : List.Forall₂ r l m) : l.map f = m.map g := by
  induction h with
  | nil => rfl
  | cons h1 _ ih => rw [List.map_cons, List.map_cons, hr _ _ h1, ih]

variable {V R : Type}

/-- The values of the fields stand for elements, the texts are texts. -/
def LeavesFit (vs : Validators Str V R PyVal) (ps : List Str) : Prop :=
  (∀ v o, vs.fin v = .ok o → fits ps o = true) ∧ ∀ v o, vs.fin v = .ok o → ∃ s, vs.str o = .str s

/-- Every written group is a dictionary that stands for an element. -/
theorem group_fits (S : Schema Str) (vs : Validators Str V R PyVal) (ps : List Str) (good : Cls → Prop)
    (hclosed : ∀ c, good c → ∀ k f c', lookup k (S c) = some f → f.type = .sub c' → good c')
    (hnames : ∀ c, good c → GoodNames (S c)) (hfit : ∀ c, good c → namesFit ps (S c) = true)
    (hvs : LeavesFit vs ps) (n : Node V) (hw : WF S n) (hc : Classes S n) (hn : good n.cls) (o : Out PyVal)
    (ho : getDict S vs n = .ok o) : ∃ d, outVal o = .dict d ∧ fits ps (.dict d) = true := by
  induction hw generalizing o with
  | @mk c items known nodup deep ih =>
    obtain ⟨items', es, rfl, hperm, -, hent⟩ := written_in_order S vs c items o nodup (hnames c hn) ho
    refine ⟨outItems es, rfl, ?_⟩
    have hf := hfit c hn
    rw [namesFit] at hf
    simp only [Bool.and_eq_true, decide_eq_true_eq, List.all_eq_true] at hf
    obtain ⟨⟨hf1, hf2⟩, hf3⟩ := hf
    cases hc with
    | mk ccls cdeep =>
    have hent' : ∀ w ∈ es, ∃ e ∈ items', EntryOf S vs (S c) e w := fun w hw => forall₂_right hent hw
    apply fits_sub hf1 hf2
    · rw [outItems_keys]
      have hnd' : (items'.map Prod.fst).Nodup := (hperm.map Prod.fst).nodup_iff.2 nodup
      clear hperm ho hent'
      induction hent with
      | nil => exact List.nodup_nil
      | @cons a b l m h1 h2 ihh =>
        rw [List.map_cons, List.nodup_cons] at hnd' ⊢
        refine ⟨?_, ihh hnd'.2⟩
        intro hb
        obtain ⟨w, hw, hwb⟩ := List.mem_map.1 hb
        obtain ⟨e, he, f', hf', hx', _⟩ := forall₂_right h2 hw
        obtain ⟨f, hf, hx, _⟩ := h1
        rw [hwb] at hx'
        have := (hnames c hn).2 _ _ _ _ _ hf hf' hx hx'
        exact hnd'.1 (List.mem_map.2 ⟨e, he, this.symm⟩)
    · intro k hk
      rw [outItems_keys] at hk
      obtain ⟨w, hw, rfl⟩ := List.mem_map.1 hk
      obtain ⟨e, he, f, hf, hx, _⟩ := hent' w hw
      rw [blank, List.map_map]
      exact List.mem_map.2 ⟨(e.1, f), mem_of_lookup hf, xmlName_getName hx⟩
    · cases hg : aget c!"#text" (outItems es) with
      | none => rfl
      | some v =>
        obtain ⟨o, ho', he⟩ := outItems_mem (aget_mem hg)
        simp only at ho' he
        obtain ⟨e, hemem, f, hf, hx, hval⟩ := hent' _ ho'
        have hname := xmlName_getName hx
        simp only at hname
        have := hf3 _ (mem_of_lookup hf)
        have h3 := this hname
        have hkn := known e.1 e.2 (hperm.mem_iff.1 hemem)
        obtain ⟨f', hf', hshape⟩ := hkn
        rw [hf] at hf'; cases hf'
        obtain ⟨ek, ev⟩ := e
        cases ev with
        | leaf v' =>
          simp only at hval
          obtain ⟨x, hx1, hx2⟩ := hval
          rw [if_pos h3.1] at hx2
          obtain ⟨s, hs⟩ := hvs.2 v' x hx1
          rw [he, hx2, hs]
          rfl
        | nodes l =>
          obtain ⟨⟨c', hc'⟩, _⟩ := hshape
          have := h3.2
          rw [hc'] at this
          cases this
    · intro x hx hk
      obtain ⟨o, ho', he⟩ := outItems_mem hx
      obtain ⟨e, hemem, f, hf, hxn, hval⟩ := hent' _ ho'
      have hmem := hperm.mem_iff.1 hemem
      rw [he]
      obtain ⟨ek, ev⟩ := e
      cases ev with
      | leaf v' =>
        simp only at hval
        obtain ⟨y, hy1, hy2⟩ := hval
        rw [hy2]
        split
        · obtain ⟨s, hs⟩ := hvs.2 v' y hy1
          rw [hs]
          rfl
        · exact hvs.1 v' y hy1
      | nodes l =>
        simp only at hval
        obtain ⟨os, hos1, hos2⟩ := hval
        rw [hos1, outVal, fits]
        apply rowFits_of
        intro w hw
        obtain ⟨o', ho1, rfl⟩ := outRow_mem hw
        obtain ⟨m, hm, hmo⟩ := forall₂_right hos2 ho1
        have hcls := ccls ek l hmem f hf m hm
        obtain ⟨d, hd1, hd2⟩ := ih ek l hmem m hm (cdeep ek l hmem m hm) (hclosed c hn ek f _ hf hcls) o' hmo
        rw [hd1]
        exact ⟨rfl, hd2⟩

/-! ### The tables -/

/-- The classes with fields of openLCA. -/
def olcaClasses : List Cls :=
  [c!"OLCATime", c!"OLCAVariableParameter", c!"OLCAMathematicalRelations", c!"OLCAExchange", c!"OLCAExchanges"]

theorem ecs2_names : ∀ e ∈ ecs2Table, namesFit [c!"", c!"xml"] e.2 = true := by decide +kernel

theorem ilcd_names : ∀ e ∈ ilcdTable, e.1 ∉ olcaClasses → namesFit [c!"", c!"common", c!"xml"] e.2 = true := by
  decide +kernel

theorem olca_names : ∀ e ∈ ilcdTable, namesFit [c!"", c!"common", c!"olca", c!"xml"] e.2 = true := by decide +kernel

/-- The classes of ILCD have no parts that are classes of openLCA. -/
theorem ilcd_noOlca : ∀ e ∈ ilcdTable, e.1 ∉ olcaClasses → e.2.all (fun x => match x.2.type with
    | .leaf _ => true
    | .sub c => decide (c ∉ olcaClasses)) = true := by decide +kernel

theorem of_table {table : List (Cls × List (Key × Field Str))} {P : Cls → List (Key × Field Str) → Prop}
    (h : ∀ e ∈ table, P e.1 e.2) (h0 : ∀ c, P c []) (c : Cls) : P c ((lookup c table).getD []) := by
  cases hl : lookup c table with
  | none => exact h0 c
  | some fs => exact h _ (mem_of_lookup hl)

theorem namesFit_nil (ps : List Str) : namesFit ps [] = true := by
  simp [namesFit, blank, declared, attrKeys, fits, plainKeys, kidKeys, textFit, kidsFit, aget]

theorem ecs2_group (vs : Validators Str V R PyVal) (hvs : LeavesFit vs [c!"", c!"xml"]) (n : Node V) (hw : WF ecs2 n)
    (hc : Classes ecs2 n) (o : Out PyVal) (ho : getDict ecs2 vs n = .ok o) :
    ∃ d, outVal o = .dict d ∧ fits [c!"", c!"xml"] (.dict d) = true :=
  group_fits ecs2 vs _ (fun _ => True) (fun _ _ _ _ _ _ _ => trivial) (fun c _ => ecs2_names_distinct c)
    (fun c _ => of_table (P := fun _ fs => namesFit [c!"", c!"xml"] fs = true) ecs2_names (fun _ => namesFit_nil _) c)
    hvs n hw hc trivial o ho

theorem ilcd_group (vs : Validators Str V R PyVal) (hvs : LeavesFit vs [c!"", c!"common", c!"xml"]) (n : Node V)
    (hw : WF ilcd n) (hc : Classes ilcd n) (hn : n.cls ∉ olcaClasses) (o : Out PyVal) (ho : getDict ilcd vs n = .ok o) :
    ∃ d, outVal o = .dict d ∧ fits [c!"", c!"common", c!"xml"] (.dict d) = true := by
  refine group_fits ilcd vs _ (fun c => c ∉ olcaClasses) ?_ (fun c _ => ilcd_names_distinct c) ?_ hvs n hw hc hn o ho
  · intro c hc k f c' hf ht
    have := of_table (P := fun c fs => c ∉ olcaClasses → fs.all (fun x => match x.2.type with
      | .leaf _ => true
      | .sub c => decide (c ∉ olcaClasses)) = true) ilcd_noOlca (fun _ _ => rfl) c hc
    rw [List.all_eq_true] at this
    have h := this _ (mem_of_lookup hf)
    simp only [ht, decide_eq_true_eq] at h
    exact h
  · intro c hc
    exact of_table (P := fun c fs => c ∉ olcaClasses → namesFit [c!"", c!"common", c!"xml"] fs = true) ilcd_names
      (fun _ _ => namesFit_nil _) c hc

theorem olca_group (vs : Validators Str V R PyVal) (hvs : LeavesFit vs [c!"", c!"common", c!"olca", c!"xml"]) (n : Node V)
    (hw : WF ilcd n) (hc : Classes ilcd n) (o : Out PyVal) (ho : getDict ilcd vs n = .ok o) :
    ∃ d, outVal o = .dict d ∧ fits [c!"", c!"common", c!"olca", c!"xml"] (.dict d) = true :=
  group_fits ilcd vs _ (fun _ => True) (fun _ _ _ _ _ _ _ => trivial) (fun c _ => ilcd_names_distinct c)
    (fun c _ => of_table (P := fun _ fs => namesFit [c!"", c!"common", c!"olca", c!"xml"] fs = true) olca_names
      (fun _ => namesFit_nil _) c)
    hvs n hw hc trivial o ho

end Verif.XmlWrite
