import Verif.Spec.Settings
import Verif.Lemmas.EcsVars
import Verif.Lemmas.Py
import Mathlib.Tactic.IntervalCases

/-! The parts of a converter that a user may exchange. -/

namespace Verif.Settings

open Spec

/-- With the parts it comes with, a converter to any format begins to convert. -/
theorem default_works (o : Str) : use (new o) = .ok () := by
  unfold new structures
  by_cases h : o = c!"EcoSpold2"
  · simp [use, callable, getStructure, pick, h]
  · simp [use, callable, getStructure, pick, h]

/-- What a property of a new converter gives back is not taken by its setter, except for the input manager and the
version. -/
theorem read_back (o : Str) (a : Assign) (ha : a ∈ readBack (new o)) :
    (∃ c, set (new o) a = .ok c) ↔ (∃ x, a = .input x) ∨ ∃ v, a = .version v := by
  unfold readBack at ha
  simp only [List.mem_cons, List.not_mem_nil, or_false] at ha
  rcases ha with rfl | rfl | rfl | rfl | rfl | rfl
  · constructor
    · rintro ⟨c, h⟩; simp [set, new, isInst] at h
    · rintro (⟨x, h⟩ | ⟨v, h⟩) <;> cases h
  · exact ⟨fun _ => .inl ⟨_, rfl⟩, fun _ => ⟨_, rfl⟩⟩
  · constructor
    · rintro ⟨c, h⟩; simp [set, new, isInst] at h
    · rintro (⟨x, h⟩ | ⟨v, h⟩) <;> cases h
  · constructor
    · rintro ⟨c, h⟩
      have hs : ∃ l, (new o).struct = .versions l := by
        unfold new structures
        by_cases h : o = c!"EcoSpold2"
        · exact ⟨_, if_pos h⟩
        · exact ⟨_, if_neg h⟩
      obtain ⟨l, hl⟩ := hs
      simp [set, hl, isInst] at h
    · rintro (⟨x, h⟩ | ⟨v, h⟩) <;> cases h
  · exact ⟨fun _ => .inr ⟨_, rfl⟩, fun _ => ⟨_, rfl⟩⟩
  · constructor
    · rintro ⟨c, h⟩; simp [set, makeConfig] at h
    · rintro (⟨x, h⟩ | ⟨v, h⟩) <;> cases h

example : (Assign.iterator (.cls .iterator)) ∈ readBack (new c!"ILCD1") := by simp [readBack, new]

/-- No class is accepted for any part, although the parts are called or made like classes, and no dictionary that sets
something is accepted for `mapping`. -/
theorem rejected (c : Conv) (a : Assign) (h : IsClass a ∨ SetsMapping a) : set c a = .error .typeError := by
  rcases h with h | h
  · cases a with
    | version v => exact absurd h id
    | iterator x => obtain ⟨b, rfl⟩ := h; rfl
    | input x => obtain ⟨b, rfl⟩ := h; rfl
    | manager x => obtain ⟨b, rfl⟩ := h; rfl
    | struct x => obtain ⟨b, rfl⟩ := h; rfl
    | mapping x => obtain ⟨b, rfl⟩ := h; rfl
  · cases a with
    | mapping x => obtain ⟨k, ks, rfl⟩ := h; rfl
    | _ => exact absurd h id

/-- Any number of such assignments leaves the converter as it was. -/
theorem rejected_no_effect (c : Conv) (l : List Assign) (h : ∀ a ∈ l, IsClass a ∨ SetsMapping a) : after c l = c := by
  induction l with
  | nil => rfl
  | cons a l ih =>
    have : assign c a = c := by unfold assign; rw [rejected c a (h a (by simp))]
    unfold after
    rw [List.foldl_cons, this]
    exact ih fun b hb => h b (List.mem_cons_of_mem _ hb)

example : IsClass (.iterator (.cls .iterator)) ∧ SetsMapping (.mapping (.dict [c!"mapping_class"])) :=
  ⟨⟨_, rfl⟩, ⟨_, _, rfl⟩⟩

/-- When the parts can be used. -/
theorem use_iff (c : Conv) :
    use c = .ok () ↔ callable c.iterator = true ∧ getStructure c = .ok () ∧ callable c.manager = true := by
  unfold use
  cases hi : callable c.iterator
  · simp
  · cases hs : getStructure c with
    | error e => simp
    | ok u => cases hm : callable c.manager <;> simp

/-- An accepted iterator is an instance, and the next conversion works only if the instance can be called. -/
theorem iterator_exchanged (c c' : Conv) (x : Obj) (h : set c (.iterator x) = .ok c') (hc : use c = .ok ()) :
    (∃ k s, x = .inst .iterator k s) ∧
      (use c' = .ok () ↔ callable x = true) ∧ (callable x = false → use c' = .error .typeError) := by
  cases x with
  | inst b k s =>
    simp only [set, isInst, decide_eq_true_eq] at h
    split at h
    · rename_i hb
      subst hb
      have h := Except.ok.inj h
      subst h
      refine ⟨⟨k, s, rfl⟩, ?_, ?_⟩
      · rw [use_iff] at hc ⊢
        exact ⟨fun h => h.1, fun h => ⟨h, hc.2⟩⟩
      · intro hk
        simp only [callable] at hk
        simp [use, callable, hk]
    · exact absurd h (by simp)
  | _ => exact absurd h (by simp [set, isInst])

/-- An accepted output manager is an instance, and the next conversion works only if the instance can be called. -/
theorem manager_exchanged (c c' : Conv) (x : Obj) (h : set c (.manager x) = .ok c') (hc : use c = .ok ()) :
    (∃ k s, x = .inst .output k s) ∧
      (use c' = .ok () ↔ callable x = true) ∧ (callable x = false → use c' = .error .typeError) := by
  cases x with
  | inst b k s =>
    simp only [set, isInst, decide_eq_true_eq] at h
    split at h
    · rename_i hb
      subst hb
      have h := Except.ok.inj h
      subst h
      obtain ⟨h1, h2, h3⟩ := (use_iff c).mp hc
      have hg : getStructure { c with manager := .inst .output k s } = .ok () := h2
      refine ⟨⟨k, s, rfl⟩, ?_, ?_⟩
      · rw [use_iff]
        exact ⟨fun h => h.2.2, fun h => ⟨h1, hg, h⟩⟩
      · intro hk
        simp only [callable] at hk
        unfold use
        simp only [h1, hg, Bool.not_true, Bool.false_eq_true, if_false]
        simp [callable, hk]
    · exact absurd h (by simp)
  | _ => exact absurd h (by simp [set, isInst])

/-- An accepted structure is an instance, and the next conversion works only if the instance can be subscripted; the
structures of the program cannot. -/
theorem struct_exchanged (c c' : Conv) (x : Obj) (h : set c (.struct x) = .ok c') (hc : use c = .ok ()) :
    ∃ k s, x = .inst .struct k s ∧
      (use c' = .ok () ↔ s = true) ∧ (s = false → use c' = .error .typeError) := by
  cases x with
  | inst b k s =>
    simp only [set, isInst, decide_eq_true_eq] at h
    split at h
    · rename_i hb
      subst hb
      have h := Except.ok.inj h
      subst h
      obtain ⟨h1, h2, h3⟩ := (use_iff c).mp hc
      refine ⟨k, s, rfl, ?_, ?_⟩
      · rw [use_iff]
        cases s <;> simp [getStructure, h1, h3]
      · rintro rfl
        unfold use
        simp [h1, getStructure]
    · exact absurd h (by simp)
  | _ => exact absurd h (by simp [set, isInst])

example : set (new c!"ILCD1") (.iterator (.inst .iterator false false)) =
      .ok { new c!"ILCD1" with iterator := .inst .iterator false false } ∧
    set (new c!"ILCD1") (.manager (.inst .output false false)) =
      .ok { new c!"ILCD1" with manager := .inst .output false false } ∧
    set (new c!"ILCD1") (.struct (.inst .struct false false)) =
      .ok { new c!"ILCD1" with struct := .inst .struct false false } := ⟨rfl, rfl, rfl⟩

/-- The versions of the output that work: the default and the one of the format; another one stops the conversion. -/
theorem version_iff (o : Str) (v : Version) :
    ∃ c, set (new o) (.version v) = .ok c ∧
      (use c = .ok () ↔ v = none ∨ (o = c!"EcoSpold2" ∧ v = some (c!"2", c!"0")) ∨
        (o ≠ c!"EcoSpold2" ∧ v = some (c!"1", c!"1"))) ∧
      (use c = .ok () ∨ use c = .error .keyError) := by
  refine ⟨_, rfl, ?_, ?_⟩
  · rw [use_iff]
    unfold new structures
    by_cases h : o = c!"EcoSpold2"
    · by_cases hv : v = none <;> simp [callable, getStructure, pick, h, hv]
    · by_cases hv : v = none <;> simp [callable, getStructure, pick, h, hv]
  · unfold use new structures
    by_cases h : o = c!"EcoSpold2"
    · by_cases hv : v ∈ [none, some (c!"2", c!"0")]
      · left; simp only [callable, getStructure, h, if_pos, pick, hv]; rfl
      · right; simp only [callable, getStructure, h, if_true, pick, if_neg hv]; rfl
    · by_cases hv : v ∈ [none, some (c!"1", c!"1")]
      · left; simp only [callable, getStructure, if_neg h, pick, if_pos hv]; rfl
      · right; simp only [callable, getStructure, if_neg h, pick, if_neg hv]; rfl

/-- Without a structure of its own the factory has to give one; it knows EcoSpold2 by another name. -/
theorem factory_unknown (c : Conv) (hs : c.struct = .none) (ho : c.output = c!"EcoSpold2") :
    getStructure c = .error .typeError := by
  have : factory c!"EcoSpold2" = none := by decide
  simp only [getStructure, hs, ho, this]

theorem factory_known (c : Conv) (hs : c.struct = .none) (ho : c.output = c!"ILCD1" ∨ c.output = c!"OLCAILCD1")
    (hv : c.version = none) : getStructure c = .ok () := by
  rcases ho with ho | ho <;> simp [getStructure, hs, ho, hv, factory, aget, pick]

/-- A converter can be printed until a configuration of the mapping has been accepted, which is only the empty one. -/
theorem printed_iff (o : Str) (l : List Assign) (options : List ((Str × Str) × Str)) :
    (∃ t, toText (after (new o) l) options = .ok t) ↔
      ∀ a ∈ l, ∀ x, a = .mapping x → x ≠ .dict [] ∧ x ≠ .versions [] := by
  have key : ∀ (l : List Assign) (c : Conv), (after c l).config = false ↔
      c.config = false ∧ ∀ a ∈ l, ∀ x, a = .mapping x → x ≠ .dict [] ∧ x ≠ .versions [] := by
    intro l
    induction l with
    | nil => intro c; simp [after]
    | cons a l ih =>
      intro c
      have hstep : (assign c a).config = false ↔
          c.config = false ∧ ∀ x, a = .mapping x → x ≠ .dict [] ∧ x ≠ .versions [] := by
        cases a with
        | iterator x => cases hx : isInst .iterator x <;> simp [assign, set, hx]
        | input x => cases hx : isInst .input x <;> simp [assign, set, hx]
        | manager x => cases hx : isInst .output x <;> simp [assign, set, hx]
        | struct x => cases hx : isInst .struct x <;> simp [assign, set, hx]
        | version v => simp [assign, set]
        | mapping x =>
          cases x with
          | none => simp [assign, set, makeConfig]
          | cls b => simp [assign, set, makeConfig]
          | inst b k s => simp [assign, set, makeConfig]
          | dict ks => cases ks <;> simp [assign, set, makeConfig]
          | versions vs => cases vs <;> simp [assign, set, makeConfig]
      have : after c (a :: l) = after (assign c a) l := rfl
      rw [this, ih, hstep]
      constructor
      · rintro ⟨⟨h1, h2⟩, h3⟩
        refine ⟨h1, ?_⟩
        intro b hb
        rcases List.mem_cons.mp hb with rfl | hb
        · exact h2
        · exact h3 b hb
      · rintro ⟨h1, h2⟩
        exact ⟨⟨h1, h2 a (by simp)⟩, fun b hb => h2 b (List.mem_cons_of_mem _ hb)⟩
  have h := key l (new o)
  have hn : (new o).config = false := rfl
  simp only [hn, true_and] at h
  rw [← h]
  unfold toText
  cases (after (new o) l).config <;> simp

/-- The empty configuration is accepted, the conversion works as before, and printing the converter fails. -/
theorem empty_mapping_unprintable (o : Str) (options : List ((Str × Str) × Str)) :
    ∃ c, set (new o) (.mapping (.dict [])) = .ok c ∧ use c = .ok () ∧ toText c options = .error .typeError := by
  refine ⟨_, rfl, ?_, rfl⟩
  have := default_works o
  rw [use_iff] at this ⊢
  exact this

theorem toLower_toUpper (c : Char) (h : c = ' ' ∨ ('a' ≤ c ∧ c ≤ 'z')) :
    (if c.toUpper = ' ' then '_' else c.toUpper.toLower) = if c = ' ' then '_' else c := by
  rcases h with rfl | ⟨h1, h2⟩
  · decide
  · have e : c = Char.ofNat c.toNat := (Char.ofNat_toNat c).symm
    have l1 : 97 ≤ c.toNat := h1
    have l2 : c.toNat ≤ 122 := h2
    generalize c.toNat = n at e l1 l2
    subst e
    interval_cases n <;> decide

theorem toLower_small (c : Char) (h : c = ' ' ∨ ('a' ≤ c ∧ c ≤ 'z')) : c.toLower = c := by
  rcases h with rfl | ⟨h1, h2⟩
  · decide
  · have e : c = Char.ofNat c.toNat := (Char.ofNat_toNat c).symm
    have l1 : 97 ≤ c.toNat := h1
    have l2 : c.toNat ≤ 122 := h2
    generalize c.toNat = n at e l1 l2
    subst e
    interval_cases n <;> decide

/-- The attribute can be told from the text shown for it. -/
theorem shown_attribute (name : Str) (h : Attribute name) : asAttribute (capitalize (spaces name)) = name := by
  have sp : ∀ c, (c = '_' ∨ ('a' ≤ c ∧ c ≤ 'z')) →
      ((if c = '_' then ' ' else c) = ' ' ∨ ('a' ≤ (if c = '_' then ' ' else c) ∧ (if c = '_' then ' ' else c) ≤ 'z')) := by
    rintro c (rfl | hc)
    · left; rfl
    · by_cases he : c = '_'
      · left; rw [if_pos he]
      · right; rw [if_neg he]; exact hc
  have back : ∀ c, (c = '_' ∨ ('a' ≤ c ∧ c ≤ 'z')) →
      (if (if c = '_' then ' ' else c) = ' ' then '_' else (if c = '_' then ' ' else c)) = c := by
    rintro c (rfl | hc)
    · rfl
    · by_cases he : c = '_'
      · subst he; rfl
      · rw [if_neg he]
        rw [if_neg]
        rintro rfl
        exact absurd hc.1 (by decide)
  have tail : ∀ s : Str, Attribute s →
      ((spaces s).map Char.toLower).map (fun c => if c = ' ' then '_' else c.toLower) = s := by
    intro s hs
    unfold spaces
    rw [List.map_map, List.map_map]
    conv_rhs => rw [← List.map_id s]
    refine List.map_congr_left ?_
    intro c hc
    have h1 := sp c (hs c hc)
    simp only [Function.comp, id]
    rw [toLower_small _ h1, toLower_small _ h1]
    exact back c (hs c hc)
  cases name with
  | nil => rfl
  | cons c s =>
    unfold asAttribute
    have e : capitalize (spaces (c :: s)) = (if c = '_' then ' ' else c).toUpper :: (spaces s).map Char.toLower := rfl
    rw [e, List.map_cons]
    have h1 := h c (by simp)
    rw [toLower_toUpper _ (sp c h1), back c h1, tail s fun d hd => h d (List.mem_cons_of_mem _ hd)]

/-- The line of an option names the format, the attribute and the value. -/
theorem option_line (conf name value : Str) (hc : '_' ∉ conf) (hn : Attribute name) :
    ∃ shown, optionLine (conf ++ c!"_" ++ name) value = c!"[" ++ conf ++ c!"] " ++ shown ++ c!" : " ++ value ∧
      asAttribute shown = name := by
  refine ⟨capitalize (spaces name), ?_, shown_attribute name hn⟩
  have e : conf ++ c!"_" ++ name = conf ++ '_' :: name := by simp
  unfold optionLine
  rw [e, EcsVars.splitOn_cons hc]
  simp only [List.head?_cons, Option.getD_some, List.tail_cons]
  rw [join_splitOn]

/-- This holds of every option of every format. -/
theorem option_names (i o : Str) :
    ∀ p ∈ Options.inputOptions i ++ Options.outputOptions o, Attribute p.1 := by
  have key : ∀ l : List (Str × Bool), (∀ p ∈ l, ∀ c ∈ p.1, c = '_' ∨ ('a' ≤ c ∧ c ≤ 'z')) → ∀ p ∈ l, Attribute p.1 :=
    fun l h p hp => h p hp
  unfold Options.inputOptions Options.outputOptions
  split <;> split <;> exact key _ (by decide)

example : '_' ∉ c!"EcoSpold2" ∧ optionLine c!"EcoSpold2_convert_properties" c!"True" =
    c!"[EcoSpold2] Convert properties : True" := by decide

end Verif.Settings
