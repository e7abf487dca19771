/-
The numbers at the end of the log of a conversion of EcoSpold2 to ILCD.
-/
import Mathlib.Algebra.BigOperators.Group.List.Basic
import Mathlib.Tactic.Ring
import Verif.Spec.Stats
import Verif.Lemmas.Assoc
import Verif.Lemmas.Num
import Verif.Props.OutputName

namespace Verif.Stats

open Spec

/-- One if it holds. -/
def one (b : Bool) : Int := if b then 1 else 0

theorem many_nil {α : Type} (p : α → Bool) : many p [] = 0 := rfl

theorem many_cons {α : Type} (p : α → Bool) (a : α) (l : List α) : many p (a :: l) = one (p a) + many p l := by
  unfold many one
  rw [List.countP_cons]
  split <;> simp [Int.add_comm]

theorem many_append {α : Type} (p : α → Bool) (l m : List α) : many p (l ++ m) = many p l + many p m := by
  unfold many
  rw [List.countP_append]
  simp

theorem many_map {α β : Type} (p : β → Bool) (f : α → β) (l : List α) : many p (l.map f) = many (fun a => p (f a)) l := by
  unfold many
  rw [List.countP_map]
  rfl

theorem many_filter {α : Type} (p q : α → Bool) (l : List α) : many p (l.filter q) = many (fun a => p a && q a) l := by
  unfold many
  rw [List.countP_filter]

theorem many_nonneg {α : Type} (p : α → Bool) (l : List α) : 0 ≤ many p l := Int.natCast_nonneg _

theorem many_le {α : Type} {p q : α → Bool} (l : List α) (h : ∀ a, p a = true → q a = true) : many p l ≤ many q l := by
  unfold many
  exact Int.ofNat_le.2 (List.countP_mono_left fun a _ => h a)

/-! ### One step -/

theorem count_conv (s : St) (k j : Kind) (n : Int) : (s.count k n).conv j = s.conv j + if j = k then n else 0 := by
  unfold St.count bump
  by_cases h : j = k <;> simp [h]

theorem addStat_found (s : St) (k j : Kind) : (s.addStat k).found j = s.found j + if j = k then 1 else 0 := by
  unfold St.addStat bump
  by_cases h : j = k <;> simp [h]

theorem unc_conv (d : Option Dist) (s : St) (j : Kind) :
    (getUncertainty d s).conv j = s.conv j + if j = .unc then one (known d) else 0 := by
  rcases d with _ | _ | _ | _ <;> simp [getUncertainty, known, one, count_conv]

@[simp] theorem count_found (s : St) (k : Kind) (n : Int) : (s.count k n).found = s.found := rfl
@[simp] theorem count_names (s : St) (k : Kind) (n : Int) : (s.count k n).names = s.names := rfl
@[simp] theorem count_amts (s : St) (k : Kind) (n : Int) : (s.count k n).amts = s.amts := rfl
@[simp] theorem addStat_conv (s : St) (k : Kind) : (s.addStat k).conv = s.conv := rfl
@[simp] theorem addStat_names (s : St) (k : Kind) : (s.addStat k).names = s.names := rfl
@[simp] theorem addStat_amts (s : St) (k : Kind) : (s.addStat k).amts = s.amts := rfl
@[simp] theorem newAmt_conv (a : Amt) (s : St) : (newAmt a s).conv = s.conv := rfl
@[simp] theorem newAmt_found (a : Amt) (s : St) : (newAmt a s).found = s.found := rfl
@[simp] theorem newAmt_names (a : Amt) (s : St) : (newAmt a s).names = s.names := rfl
@[simp] theorem newAmt_amts (a : Amt) (s : St) : (newAmt a s).amts = s.amts ++ [a] := rfl

@[simp] theorem unc_found (d : Option Dist) (s : St) : (getUncertainty d s).found = s.found := by
  rcases d with _ | _ | _ | _ <;> rfl
@[simp] theorem unc_names (d : Option Dist) (s : St) : (getUncertainty d s).names = s.names := by
  rcases d with _ | _ | _ | _ <;> rfl
@[simp] theorem unc_amts (d : Option Dist) (s : St) : (getUncertainty d s).amts = s.amts := by
  rcases d with _ | _ | _ | _ <;> rfl

/-- What a variable made for a value changes in the number of uncertainties. -/
theorem create_conv (n : Str) (d : Option Dist) (s : St) (j : Kind) :
    (create n d s).conv j = s.conv j - if j = .unc ∧ n ∉ s.names ∧ d = some .other then 1 else 0 := by
  unfold create
  by_cases h : n ∈ s.names
  · simp [h]
  · rw [if_neg h]
    rcases d with _ | _ | _ | _ <;> simp only [unc_conv, count_conv, known, one] <;> by_cases hj : j = .unc <;> simp [hj, h] <;> omega

@[simp] theorem create_found (n : Str) (d : Option Dist) (s : St) : (create n d s).found = s.found := by
  unfold create
  split
  · rfl
  · rcases d with _ | _ | _ | _ <;> rfl

@[simp] theorem create_amts (n : Str) (d : Option Dist) (s : St) : (create n d s).amts = s.amts := by
  unfold create
  split
  · rfl
  · rcases d with _ | _ | _ | _ <;> rfl

theorem create_names (n : Str) (d : Option Dist) (s : St) :
    (create n d s).names = if n ∈ s.names then s.names else s.names ++ [n] := by
  unfold create
  split
  · rfl
  · rcases d with _ | _ | _ | _ <;> rfl

theorem create_bounds (n : Str) (d : Option Dist) (s : St) (j : Kind) :
    (create n d s).conv j ≤ s.conv j ∧ (j ≠ .unc ∨ d ≠ some .other → (create n d s).conv j = s.conv j) := by
  rw [create_conv]
  constructor
  · split <;> omega
  · rintro (h | h) <;> simp [h]

theorem construct_conv (a : Amt) (s : St) (j : Kind) :
    (constructVariable a s).conv j ≤ s.conv j + (if j = .var then one a.var.isSome else 0) ∧
    (j ≠ .unc ∨ a.dist ≠ some .other →
      (constructVariable a s).conv j = s.conv j + (if j = .var then one a.var.isSome else 0)) := by
  have hn : ∀ n s, (create n none s).conv j = s.conv j := fun n s => (create_bounds n none s j).2 (.inr (by decide))
  unfold constructVariable
  cases hr : a.rescaled with
  | true =>
    rw [if_pos rfl]
    cases hv : a.var with
    | none =>
      simp only [hn, one]
      simpa using create_bounds a.conv a.dist s j
    | some n =>
      simp only [hn]
      obtain ⟨h1, h2⟩ := create_bounds a.conv a.dist ((if a.eq = true then s else create n a.dist s).count .var 1) j
      rw [count_conv] at h1 h2
      have h3 : (if a.eq = true then s else create n a.dist s).conv j ≤ s.conv j ∧
          (j ≠ .unc ∨ a.dist ≠ some .other → (if a.eq = true then s else create n a.dist s).conv j = s.conv j) := by
        cases a.eq with
        | true => simp
        | false => simpa using create_bounds n a.dist s j
      simp only [one, Option.isSome_some, if_true]
      constructor
      · exact h1.trans (Int.add_le_add_right h3.1 _)
      · intro h
        rw [h2 h, h3.2 h]
  | false =>
    simp only [Bool.false_eq_true, if_false]
    cases hv : a.var with
    | none => simp [one]
    | some n =>
      rw [count_conv]
      obtain ⟨h1, h2⟩ := create_bounds n a.dist s j
      simp only [one, Option.isSome_some, if_true]
      exact ⟨by omega, fun h => by rw [h2 h]⟩

theorem construct_found (a : Amt) (s : St) : (constructVariable a s).found = s.found := by
  unfold constructVariable
  cases a.rescaled <;> cases a.var <;> cases a.eq <;> simp

/-! ### Lists -/

theorem readProps_conv (l : List Prop') (s : St) : (readProps l s).conv = s.conv := by
  unfold readProps
  induction l generalizing s with
  | nil => rfl
  | cons p l ih => rw [List.foldl_cons, ih]; rfl

theorem readProps_found (l : List Prop') (s : St) : (readProps l s).found = s.found := by
  unfold readProps
  induction l generalizing s with
  | nil => rfl
  | cons p l ih => rw [List.foldl_cons, ih]; rfl

theorem readProps_names (l : List Prop') (s : St) : (readProps l s).names = s.names := by
  unfold readProps
  induction l generalizing s with
  | nil => rfl
  | cons p l ih => rw [List.foldl_cons, ih]; rfl

theorem readProps_amts (l : List Prop') (s : St) : (readProps l s).amts = s.amts ++ l.map Prop'.amt := by
  unfold readProps
  induction l generalizing s with
  | nil => simp
  | cons p l ih => rw [List.foldl_cons, ih]; simp

theorem getDict_conv (d : Option Dist) (s : St) (j : Kind) :
    (getDict d s).conv j = s.conv j + (if j = .prp then 1 else 0) + if j = .unc then one (known d) else 0 := by
  unfold getDict
  rw [unc_conv, count_conv]

theorem getDict_rest (d : Option Dist) (s : St) :
    (getDict d s).found = s.found ∧ (getDict d s).names = s.names ∧ (getDict d s).amts = s.amts := by
  unfold getDict
  simp

theorem writeKept_conv (l : List Prop') (s : St) (j : Kind) :
    (writeKept l s).conv j = s.conv j + (if j = .prp then many Prop'.kept l else 0) +
      if j = .unc then many (fun p => p.uncLeft && known p.amt.dist) (l.filter Prop'.kept) else 0 := by
  unfold writeKept
  induction l generalizing s with
  | nil => simp [many_nil]
  | cons p l ih =>
    rw [List.foldl_cons, ih, many_cons]
    cases hk : p.kept with
    | false => simp [hk, one]
    | true =>
      rw [List.filter_cons_of_pos (by simp [hk]), many_cons, if_pos rfl, getDict_conv]
      have : known (if p.uncLeft = true then p.amt.dist else none) = (p.uncLeft && known p.amt.dist) := by
        cases p.uncLeft <;> simp [known]
      rw [this]
      by_cases h1 : j = .prp
      · subst h1; simp [one]; ring
      · by_cases h2 : j = .unc
        · subst h2; simp; ring
        · simp [h1, h2]

theorem writeKept_rest (l : List Prop') (s : St) :
    (writeKept l s).found = s.found ∧ (writeKept l s).names = s.names ∧ (writeKept l s).amts = s.amts := by
  unfold writeKept
  induction l generalizing s with
  | nil => simp
  | cons p l ih =>
    rw [List.foldl_cons]
    obtain ⟨h1, h2, h3⟩ := ih (if p.kept = true then getDict (if p.uncLeft = true then p.amt.dist else none) s else s)
    rw [h1, h2, h3]
    split
    · exact getDict_rest _ _
    · simp

/-- What is added for an exchange that is written. -/
def exchConv (o : Opts) (x : Exch) (j : Kind) : Int :=
  (if j = .unc then one (known x.amt.dist) else 0) +
    if o.properties then
      (if j = .prp then many Prop'.kept x.props + one x.estimated else 0) +
        if j = .unc then many (fun p => p.uncLeft && known p.amt.dist) (x.props.filter Prop'.kept) else 0
    else 0

theorem writeProps_conv (o : Opts) (x : Exch) (s : St) (j : Kind) :
    (writeProps o x s).conv j + (if j = .unc then one (known x.amt.dist) else 0) = s.conv j + exchConv o x j := by
  unfold writeProps exchConv
  cases o.properties with
  | false => simp
  | true =>
    simp only [if_true]
    cases x.estimated with
    | false => simp only [Bool.false_eq_true, if_false, writeKept_conv, one]; split <;> split <;> ring
    | true =>
      simp only [if_true, getDict_conv, writeKept_conv, one, known]
      split <;> split <;> simp <;> ring

theorem writeProps_rest (o : Opts) (x : Exch) (s : St) :
    (writeProps o x s).found = s.found ∧ (writeProps o x s).names = s.names ∧ (writeProps o x s).amts = s.amts := by
  unfold writeProps
  split
  · split
    · obtain ⟨h1, h2, h3⟩ := getDict_rest none (writeKept x.props s)
      rw [h1, h2, h3]
      exact writeKept_rest _ _
    · exact writeKept_rest _ _
  · simp

theorem volume_conv (v : Option Amt) (s : St) (j : Kind) :
    (volume v s).conv j = s.conv j + if j = .pvl then one v.isSome else 0 := by
  cases v with
  | none => simp [volume, one]
  | some a => simp [volume, one, count_conv]

theorem volume_rest (v : Option Amt) (s : St) :
    (volume v s).found = s.found ∧ (volume v s).names = s.names ∧ (volume v s).amts = s.amts ++ v.toList := by
  cases v <;> simp [volume]

theorem product_conv (o : Opts) (p : Product) (s : St) (j : Kind) :
    (product o p s).conv j = s.conv j + exchConv o p.exch j + (if j = .pvl then one p.volume.isSome else 0) +
      if j = .inf then 1 else 0 := by
  unfold product
  simp only [count_conv]
  have h := writeProps_conv o p.exch
    (volume p.volume (readProps p.exch.props (getUncertainty p.exch.amt.dist (newAmt p.exch.amt s)))) j
  rw [volume_conv, readProps_conv, unc_conv, newAmt_conv] at h
  omega

theorem product_rest (o : Opts) (p : Product) (s : St) :
    (product o p s).found = s.found ∧ (product o p s).names = s.names ∧
      (product o p s).amts = s.amts ++ productAmts p := by
  unfold product
  simp only [count_found, count_names, count_amts, writeProps_rest, volume_rest, readProps_found, readProps_names,
    readProps_amts, unc_found, unc_names, unc_amts, newAmt_found, newAmt_names, newAmt_amts]
  simp [productAmts, exchAmts]

theorem elem_conv (o : Opts) (e : Elem) (s : St) (j : Kind) :
    (elem o e s).conv j = s.conv j + if e.mapped then exchConv o e.exch j + (if j = .elf then 1 else 0) else 0 := by
  unfold elem
  cases e.mapped with
  | false => simp [readProps_conv]
  | true =>
    simp only [if_true]
    have h := writeProps_conv o e.exch
      ((readProps e.exch.props (getUncertainty e.exch.amt.dist (newAmt e.exch.amt s))).count .elf 1) j
    rw [count_conv, readProps_conv, unc_conv, newAmt_conv] at h
    omega

theorem elem_rest (o : Opts) (e : Elem) (s : St) :
    (elem o e s).found = s.found ∧ (elem o e s).names = s.names ∧ (elem o e s).amts = s.amts ++ exchAmts e.exch := by
  unfold elem
  split
  · simp [writeProps_rest, readProps_found, readProps_names, readProps_amts, exchAmts]
  · simp [readProps_found, readProps_names, readProps_amts, exchAmts]

theorem foundAmt_found (a : Amt) (s : St) (j : Kind) : (foundAmt a s).found j =
    s.found j + (if j = .unc then one a.dist.isSome else 0) + if j = .var then one a.var.isSome else 0 := by
  unfold foundAmt
  cases a.dist <;> cases a.var <;> simp [addStat_found, one]

theorem foundAmt_rest (a : Amt) (s : St) :
    (foundAmt a s).conv = s.conv ∧ (foundAmt a s).names = s.names ∧ (foundAmt a s).amts = s.amts := by
  unfold foundAmt
  cases a.dist <;> cases a.var <;> simp

theorem foundExch_found (x : Exch) (s : St) (j : Kind) : (foundExch x s).found j =
    s.found j + (if j = .unc then many (fun a => a.dist.isSome) (exchAmts x) else 0) +
      (if j = .var then many (fun a => a.var.isSome) (exchAmts x) else 0) +
      if j = .prp then (x.props.length : Int) else 0 := by
  unfold foundExch
  have key : ∀ (l : List Prop') (s : St),
      (l.foldl (fun s p => foundAmt p.amt (s.addStat .prp)) s).found j =
      s.found j + (if j = .unc then many (fun a => a.dist.isSome) (l.map Prop'.amt) else 0) +
      (if j = .var then many (fun a => a.var.isSome) (l.map Prop'.amt) else 0) + if j = .prp then (l.length : Int) else 0 := by
    intro l
    induction l with
    | nil => intro s; simp [many_nil]
    | cons p l ih =>
      intro s
      rw [List.foldl_cons, ih, foundAmt_found, addStat_found, List.map_cons, many_cons, many_cons]
      by_cases h1 : j = .unc
      · subst h1; simp; ring
      · by_cases h2 : j = .var
        · subst h2; simp; ring
        · by_cases h3 : j = .prp
          · subst h3; simp; ring
          · simp [h1, h2, h3]
  rw [key, foundAmt_found]
  unfold exchAmts
  rw [many_cons, many_cons]
  by_cases h1 : j = .unc
  · subst h1; simp; ring
  · by_cases h2 : j = .var
    · subst h2; simp; ring
    · simp [h1, h2]

theorem foundExch_rest (x : Exch) (s : St) :
    (foundExch x s).conv = s.conv ∧ (foundExch x s).names = s.names ∧ (foundExch x s).amts = s.amts := by
  unfold foundExch
  have key : ∀ (l : List Prop') (s : St), (l.foldl (fun s p => foundAmt p.amt (s.addStat .prp)) s).conv = s.conv ∧
      (l.foldl (fun s p => foundAmt p.amt (s.addStat .prp)) s).names = s.names ∧
      (l.foldl (fun s p => foundAmt p.amt (s.addStat .prp)) s).amts = s.amts := by
    intro l
    induction l with
    | nil => intro s; simp
    | cons p l ih =>
      intro s
      rw [List.foldl_cons]
      simpa [foundAmt_rest] using ih (foundAmt p.amt (s.addStat .prp))
  simpa [foundAmt_rest] using key x.props (foundAmt x.amt s)

/-- What is found in a product. -/
def productFound (p : Product) (j : Kind) : Int :=
  (if j = .unc then many (fun a => a.dist.isSome) (productAmts p) else 0) +
    (if j = .var then many (fun a => a.var.isSome) (productAmts p) + one (p.volume.isNone && p.strayVar) else 0) +
    (if j = .prp then (p.exch.props.length : Int) else 0) + (if j = .inf then 1 else 0) +
    if j = .pvl then one p.volume.isSome else 0

theorem foundProduct_found (p : Product) (s : St) (j : Kind) :
    (foundProduct p s).found j = s.found j + productFound p j := by
  unfold foundProduct foundVolume productFound productAmts
  cases hv : p.volume with
  | none =>
    cases hs : p.strayVar with
    | false =>
      simp only [Bool.false_eq_true, if_false, foundExch_found, addStat_found]
      simp [one]
      cases j <;> simp
    | true =>
      simp only [if_true, foundExch_found, addStat_found]
      simp [one]
      cases j <;> simp
      ring
  | some a =>
    simp only [foundAmt_found, foundExch_found, addStat_found]
    simp [many_append, many_cons, many_nil, one]
    cases j <;> simp <;> ring

theorem foundProduct_rest (p : Product) (s : St) : (foundProduct p s).conv = s.conv ∧
    (foundProduct p s).names = s.names ∧ (foundProduct p s).amts = s.amts := by
  unfold foundProduct foundVolume
  cases p.volume <;> cases p.strayVar <;> simp [foundAmt_rest, foundExch_rest]

/-- What is found in an elementary exchange. -/
def elemFound (e : Elem) (j : Kind) : Int :=
  (if j = .unc then many (fun a => a.dist.isSome) (exchAmts e.exch) else 0) +
    (if j = .var then many (fun a => a.var.isSome) (exchAmts e.exch) else 0) +
    (if j = .prp then (e.exch.props.length : Int) else 0) + (if j = .elf then 1 else 0)

theorem foundElem_found (e : Elem) (s : St) (j : Kind) : (foundElem e s).found j = s.found j + elemFound e j := by
  unfold foundElem elemFound
  rw [foundExch_found, addStat_found]
  ring

theorem foundElem_rest (e : Elem) (s : St) : (foundElem e s).conv = s.conv ∧ (foundElem e s).names = s.names ∧
    (foundElem e s).amts = s.amts := by
  unfold foundElem
  simp [foundExch_rest]

/-! ### A data set -/

/-- A state after some steps: what was added. -/
structure Adds (s t : St) (c f : Kind → Int) (l : List Amt) : Prop where
  conv : ∀ j, t.conv j = s.conv j + c j
  found : ∀ j, t.found j = s.found j + f j
  names : t.names = s.names
  amts : t.amts = s.amts ++ l

theorem Adds.foldl {α : Type} {g : α → St → St} {c f : α → Kind → Int} {m : α → List Amt}
    (h : ∀ a s, Adds s (g a s) (c a) (f a) (m a)) (l : List α) (s : St) :
    Adds s (l.foldl (fun s a => g a s) s) (fun j => (l.map fun a => c a j).sum) (fun j => (l.map fun a => f a j).sum)
      (l.flatMap m) := by
  induction l generalizing s with
  | nil => exact ⟨by simp, by simp, rfl, by simp⟩
  | cons a l ih =>
    have h1 := h a s
    have h2 := ih (g a s)
    rw [List.foldl_cons]
    refine ⟨fun j => ?_, fun j => ?_, ?_, ?_⟩
    · rw [h2.conv, h1.conv, List.map_cons, List.sum_cons]; ring
    · rw [h2.found, h1.found, List.map_cons, List.sum_cons]; ring
    · rw [h2.names, h1.names]
    · rw [h2.amts, h1.amts, List.flatMap_cons, List.append_assoc]

theorem product_adds (o : Opts) (p : Product) (s : St) : Adds s (product o p (foundProduct p s))
    (fun j => exchConv o p.exch j + (if j = .pvl then one p.volume.isSome else 0) + if j = .inf then 1 else 0)
    (productFound p) (productAmts p) := by
  refine ⟨fun j => ?_, fun j => ?_, ?_, ?_⟩
  · rw [product_conv, (foundProduct_rest p s).1]; ring
  · rw [(product_rest o p _).1, foundProduct_found]
  · rw [(product_rest o p _).2.1, (foundProduct_rest p s).2.1]
  · rw [(product_rest o p _).2.2, (foundProduct_rest p s).2.2]

theorem elem_adds (o : Opts) (e : Elem) (s : St) : Adds s (elem o e (foundElem e s))
    (fun j => if e.mapped then exchConv o e.exch j + (if j = .elf then 1 else 0) else 0) (elemFound e) (exchAmts e.exch) := by
  refine ⟨fun j => ?_, fun j => ?_, ?_, ?_⟩
  · rw [elem_conv, (foundElem_rest e s).1]
  · rw [(elem_rest o e _).1, foundElem_found]
  · rw [(elem_rest o e _).2.1, (foundElem_rest e s).2.1]
  · rw [(elem_rest o e _).2.2, (foundElem_rest e s).2.2]

theorem param_adds (a : Amt) (s : St) : Adds s (param a (foundParam a s)) (fun j => if j = .par then 1 else 0)
    (fun j => (if j = .unc then one a.dist.isSome else 0) + (if j = .var then one a.var.isSome else 0) +
      if j = .par then 1 else 0) [a] := by
  unfold param foundParam
  refine ⟨fun j => ?_, fun j => ?_, ?_, ?_⟩
  · rw [count_conv]; simp [foundAmt_rest]
  · simp only [count_found, newAmt_found, foundAmt_found, addStat_found]; ring
  · simp [foundAmt_rest]
  · simp [foundAmt_rest]

/-- What is counted as converted before the end of a data set. -/
def base (o : Opts) (f : File) (j : Kind) : Int :=
  (f.products.map fun p => exchConv o p.exch j + (if j = .pvl then one p.volume.isSome else 0) +
    if j = .inf then 1 else 0).sum +
  (f.elems.map fun e => if e.mapped then exchConv o e.exch j + (if j = .elf then 1 else 0) else 0).sum +
  (f.params.map fun _ => if j = .par then (1 : Int) else 0).sum

/-- What is counted as found. -/
def foundIn (f : File) (j : Kind) : Int :=
  (f.products.map fun p => productFound p j).sum + (f.elems.map fun e => elemFound e j).sum +
  (f.params.map fun a => (if j = .unc then one a.dist.isSome else 0) + (if j = .var then one a.var.isSome else 0) +
      if j = .par then (1 : Int) else 0).sum

theorem body_adds (o : Opts) (f : File) (s : St) :
    Adds s (f.params.foldl (fun s a => param a (foundParam a s))
      (f.elems.foldl (fun s e => elem o e (foundElem e s))
        (f.products.foldl (fun s p => product o p (foundProduct p s)) s))) (base o f) (foundIn f) (amts f) := by
  have h1 := Adds.foldl (product_adds o) f.products s
  have h2 := Adds.foldl (elem_adds o) f.elems (f.products.foldl (fun s p => product o p (foundProduct p s)) s)
  have h3 := Adds.foldl param_adds f.params (f.elems.foldl (fun s e => elem o e (foundElem e s))
        (f.products.foldl (fun s p => product o p (foundProduct p s)) s))
  refine ⟨fun j => ?_, fun j => ?_, ?_, ?_⟩
  · rw [h3.conv, h2.conv, h1.conv, base]; ring
  · rw [h3.found, h2.found, h1.found, foundIn]; ring
  · rw [h3.names, h2.names, h1.names]
  · rw [h3.amts, h2.amts, h1.amts, amts]
    simp

/-- The variables made at the end of a data set. -/
def makeVars (l : List Amt) (s : St) : St := l.foldl (fun s a => constructVariable a s) s

theorem variables_conv (l : List Amt) (s : St) (j : Kind) :
    (makeVars l s).conv j ≤ s.conv j + (if j = .var then many (fun a => a.var.isSome) l else 0) ∧
    (j ≠ .unc ∨ (∀ a ∈ l, a.dist ≠ some .other) →
      (makeVars l s).conv j = s.conv j + (if j = .var then many (fun a => a.var.isSome) l else 0)) := by
  unfold makeVars
  induction l generalizing s with
  | nil => simp [many_nil]
  | cons a l ih =>
    rw [List.foldl_cons, many_cons]
    obtain ⟨h1, h2⟩ := construct_conv a s j
    obtain ⟨h3, h4⟩ := ih (constructVariable a s)
    constructor
    · refine h3.trans ((Int.add_le_add_right h1 _).trans (le_of_eq ?_))
      split <;> ring
    · intro h
      rw [h4 (h.imp_right fun h a ha => h a (by simp [ha])), h2 (h.imp_right fun h => h a (by simp))]
      split <;> ring

theorem variables_found (l : List Amt) (s : St) : (makeVars l s).found = s.found := by
  unfold makeVars
  induction l generalizing s with
  | nil => rfl
  | cons a l ih => rw [List.foldl_cons, ih, construct_found]

theorem merge_conv (l : List Elem) (d : List (Nat × Option Dist)) (s : St) (j : Kind) :
    s.conv j ≤ (mergeAll l d s).conv j ∧ (j ≠ .unc → (mergeAll l d s).conv j = s.conv j) := by
  induction l generalizing d s with
  | nil => simp [mergeAll]
  | cons e l ih =>
    unfold mergeAll
    cases e.mapped with
    | false => simpa using ih d s
    | true =>
      rw [if_pos rfl]
      cases hd : aget e.key d with
      | none => exact ih _ s
      | some x =>
        simp only
        obtain ⟨h1, h2⟩ := ih (aset e.key (sumDist x e.exch.amt.dist) d) (getUncertainty (sumDist x e.exch.amt.dist) s)
        rw [unc_conv] at h1 h2
        constructor
        · refine le_trans ?_ h1
          have : 0 ≤ one (known (sumDist x e.exch.amt.dist)) := by unfold one; split <;> decide
          split <;> omega
        · intro hj
          rw [h2 hj]
          simp [hj]

theorem merge_found (l : List Elem) (d : List (Nat × Option Dist)) (s : St) : (mergeAll l d s).found = s.found := by
  induction l generalizing d s with
  | nil => rfl
  | cons e l ih =>
    unfold mergeAll
    split
    · split
      · exact ih _ _
      · simp only
        rw [ih, unc_found]
    · exact ih _ _

/-- Between data sets there are no names and no values. -/
def Clean (s : St) : Prop := s.names = [] ∧ s.amts = []

theorem file_clean (o : Opts) (f : File) (s : St) : Clean (file o f s) := ⟨rfl, rfl⟩

/-- What a data set adds to the variables converted. -/
def varsOf (o : Opts) (f : File) (j : Kind) : Int :=
  if j = .var ∧ o.variables = true then many (fun a => a.var.isSome) (amts f) else 0

theorem file_conv (o : Opts) (f : File) {s : St} (hs : Clean s) (j : Kind) :
    (j ≠ .unc ∨ (o.sum = false ∧ (o.variables = false ∨ ∀ a ∈ amts f, a.dist ≠ some .other)) →
      (file o f s).conv j = s.conv j + base o f j + varsOf o f j) ∧
    (o.sum = false → (file o f s).conv j ≤ s.conv j + base o f j + varsOf o f j) ∧
    ((file o f s).found j = s.found j + foundIn f j) := by
  have hb := body_adds o f s
  unfold file endFile
  simp only
  generalize f.params.foldl (fun s a => param a (foundParam a s))
      (f.elems.foldl (fun s e => elem o e (foundElem e s))
        (f.products.foldl (fun s p => product o p (foundProduct p s)) s)) = t at hb
  have ha : t.amts = amts f := by rw [hb.amts, hs.2, List.nil_append]
  rw [ha]
  change (_ → (if o.sum = true then mergeAll f.elems [] (if o.variables = true then makeVars (amts f) t else t) else
      (if o.variables = true then makeVars (amts f) t else t)).conv j = _) ∧
    (_ → (if o.sum = true then mergeAll f.elems [] (if o.variables = true then makeVars (amts f) t else t) else
      (if o.variables = true then makeVars (amts f) t else t)).conv j ≤ _) ∧
    (if o.sum = true then mergeAll f.elems [] (if o.variables = true then makeVars (amts f) t else t) else
      (if o.variables = true then makeVars (amts f) t else t)).found j = _
  have hv : ∀ u : St, u = (if o.variables = true then makeVars (amts f) t else t) →
      u.conv j ≤ s.conv j + base o f j + varsOf o f j ∧ u.found = t.found ∧
      (j ≠ .unc ∨ (o.variables = false ∨ ∀ a ∈ amts f, a.dist ≠ some .other) →
        u.conv j = s.conv j + base o f j + varsOf o f j) := by
    rintro u rfl
    unfold varsOf
    cases o.variables with
    | false => simp [hb.conv]
    | true =>
      obtain ⟨h1, h2⟩ := variables_conv (amts f) t j
      rw [hb.conv] at h1 h2
      simp only [if_true, and_true]
      refine ⟨h1, variables_found _ _, fun h => h2 ?_⟩
      simpa using h
  obtain ⟨h1, h2, h3⟩ := hv _ rfl
  generalize (if o.variables = true then makeVars (amts f) t else t) = u at h1 h2 h3
  cases hsum : o.sum with
  | false =>
    simp only [Bool.false_eq_true, if_false]
    refine ⟨fun h => h3 ?_, fun _ => h1, by rw [h2, hb.found]⟩
    rcases h with h | h
    · exact .inl h
    · exact .inr h.2
  | true =>
    simp only [if_true]
    refine ⟨fun h => ?_, nofun, by rw [merge_found, h2, hb.found]⟩
    rcases h with h | h
    · rw [(merge_conv _ _ _ _).2 h, h3 (.inl h)]
    · exact absurd h.1 (by simp)

theorem run_conv (o : Opts) (l : List File) (j : Kind) :
    (j ≠ .unc ∨ (o.sum = false ∧ (o.variables = false ∨ ∀ f ∈ l, ∀ a ∈ amts f, a.dist ≠ some .other)) →
      (run o l).conv j = total (fun f => base o f j + varsOf o f j) l) ∧
    (o.sum = false → (run o l).conv j ≤ total (fun f => base o f j + varsOf o f j) l) ∧
    ((run o l).found j = total (fun f => foundIn f j) l) := by
  have key : ∀ s, Clean s →
      (j ≠ .unc ∨ (o.sum = false ∧ (o.variables = false ∨ ∀ f ∈ l, ∀ a ∈ amts f, a.dist ≠ some .other)) →
        (l.foldl (fun s f => file o f s) s).conv j = s.conv j + total (fun f => base o f j + varsOf o f j) l) ∧
      (o.sum = false → (l.foldl (fun s f => file o f s) s).conv j ≤
        s.conv j + total (fun f => base o f j + varsOf o f j) l) ∧
      ((l.foldl (fun s f => file o f s) s).found j = s.found j + total (fun f => foundIn f j) l) := by
    induction l with
    | nil => intro s _; simp [total]
    | cons f l ih =>
      intro s hs
      obtain ⟨h1, h2, h3⟩ := file_conv o f hs j
      obtain ⟨h4, h5, h6⟩ := ih (file o f s) (file_clean o f s)
      simp only [List.foldl_cons, total, List.map_cons, List.sum_cons] at *
      refine ⟨fun h => ?_, fun h => ?_, ?_⟩
      · rw [h4 (h.imp_right fun h => ⟨h.1, h.2.imp_right fun h f hf => h f (by simp [hf])⟩),
          h1 (h.imp_right fun h => ⟨h.1, h.2.imp_right fun h => h f (by simp)⟩)]
        ring
      · have := h5 h
        have := h2 h
        omega
      · rw [h6, h3]; ring
  obtain ⟨h1, h2, h3⟩ := key St.start ⟨rfl, rfl⟩
  refine ⟨fun h => ?_, fun h => ?_, ?_⟩
  · unfold run; rw [h1 h]; simp [St.start]
  · unfold run; simpa [St.start] using h2 h
  · unfold run; rw [h3]; simp [St.start]

/-! ### Sums -/

theorem total_congr {g h : File → Int} {l : List File} (H : ∀ f ∈ l, g f = h f) : total g l = total h l := by
  unfold total
  rw [List.map_congr_left H]

theorem total_le {g h : File → Int} {l : List File} (H : ∀ f ∈ l, g f ≤ h f) : total g l ≤ total h l := by
  unfold total
  induction l with
  | nil => simp
  | cons f l ih =>
    simp only [List.map_cons, List.sum_cons]
    have := H f (by simp)
    have := ih fun f hf => H f (by simp [hf])
    omega

theorem total_add (g h : File → Int) (l : List File) : total (fun f => g f + h f) l = total g l + total h l := by
  unfold total
  induction l with
  | nil => simp
  | cons f l ih =>
    simp only [List.map_cons, List.sum_cons, ih]
    ring

theorem sum_one {α : Type} (p : α → Bool) (l : List α) : (l.map fun a => one (p a)).sum = many p l := by
  induction l with
  | nil => rfl
  | cons a l ih => rw [List.map_cons, List.sum_cons, ih, many_cons]

theorem sum_len {α : Type} (g : α → Nat) (l : List α) : (l.map fun a => (g a : Int)).sum = ((l.map g).sum : Nat) := by
  induction l with
  | nil => rfl
  | cons a l ih => simp [ih]

theorem many_flatMap {α β : Type} (p : β → Bool) (g : α → List β) (l : List α) :
    many p (l.flatMap g) = (l.map fun a => many p (g a)).sum := by
  induction l with
  | nil => rfl
  | cons a l ih => rw [List.flatMap_cons, many_append, ih, List.map_cons, List.sum_cons]

theorem sum_mapped (g : Elem → Int) (l : List Elem) :
    (l.map fun e => if e.mapped then g e else 0).sum = ((l.filter Elem.mapped).map g).sum := by
  induction l with
  | nil => rfl
  | cons e l ih =>
    rw [List.map_cons, List.sum_cons, ih]
    cases h : e.mapped with
    | false => rw [List.filter_cons_of_neg (by simp [h])]; simp
    | true => rw [List.filter_cons_of_pos (by simp [h])]; simp

theorem sum_split {α : Type} (g h : α → Int) (l : List α) :
    (l.map fun a => g a + h a).sum = (l.map g).sum + (l.map h).sum := by
  induction l with
  | nil => rfl
  | cons a l ih => simp only [List.map_cons, List.sum_cons, ih]; ring

/-- The exchanges written, whatever they are. -/
theorem sum_written (g : Exch → Int) (f : File) :
    (f.products.map fun p => g p.exch).sum + (f.elems.map fun e => if e.mapped then g e.exch else 0).sum =
      ((written f).map g).sum := by
  rw [sum_mapped, written, List.map_append, List.sum_append, List.map_map, List.map_map]
  rfl

/-! ### The numbers -/

/-- Products: all are counted, on both sides. -/
theorem products_counted (o : Opts) (l : List File) :
    (run o l).conv .inf = total (fun f => f.products.length) l ∧ (run o l).found .inf = total (fun f => f.products.length) l := by
  obtain ⟨h1, -, h3⟩ := run_conv o l .inf
  rw [h1 (.inl (by decide)), h3]
  constructor <;> refine total_congr fun f _ => ?_
  · simp [base, varsOf, exchConv]
  · simp [foundIn, productFound, elemFound]

/-- Elementary exchanges: counted as converted are those the mapping has. -/
theorem elementary_counted (o : Opts) (l : List File) :
    (run o l).conv .elf = total (fun f => many Elem.mapped f.elems) l ∧
      (run o l).found .elf = total (fun f => f.elems.length) l := by
  obtain ⟨h1, -, h3⟩ := run_conv o l .elf
  rw [h1 (.inl (by decide)), h3]
  constructor <;> refine total_congr fun f _ => ?_
  · simp only [base, varsOf, exchConv, ← sum_one, one]
    simp
  · simp [foundIn, productFound, elemFound]

/-- Production volumes and parameters: all are counted, on both sides. -/
theorem volumes_counted (o : Opts) (l : List File) :
    (run o l).conv .pvl = (run o l).found .pvl ∧
      (run o l).found .pvl = total (fun f => many (fun p => p.volume.isSome) f.products) l ∧
      (run o l).conv .par = (run o l).found .par ∧ (run o l).found .par = total (fun f => f.params.length) l := by
  obtain ⟨h1, -, h3⟩ := run_conv o l .pvl
  obtain ⟨h4, -, h6⟩ := run_conv o l .par
  rw [h1 (.inl (by decide)), h3, h4 (.inl (by decide)), h6]
  refine ⟨total_congr fun f _ => ?_, total_congr fun f _ => ?_, total_congr fun f _ => ?_, total_congr fun f _ => ?_⟩
  · simp [base, varsOf, exchConv, foundIn, productFound, elemFound, sum_one]
  · simp [foundIn, productFound, elemFound, sum_one]
  · simp [base, varsOf, exchConv, foundIn, productFound, elemFound]
  · simp [foundIn, productFound, elemFound]

/-- Variables: counted as found are the values with a variable or formula, and the production volumes that are not there but
have one; counted as converted are the former, if variables are converted. -/
theorem variables_counted (o : Opts) (l : List File) :
    (run o l).found .var = total (fun f => many (fun a => a.var.isSome) (amts f)) l + total stray l ∧
      (run o l).conv .var = if o.variables then total (fun f => many (fun a => a.var.isSome) (amts f)) l else 0 := by
  obtain ⟨h1, -, h3⟩ := run_conv o l .var
  rw [h1 (.inl (by decide)), h3, ← total_add]
  constructor
  · refine total_congr fun f _ => ?_
    simp only [foundIn, productFound, elemFound, amts, many_append, many_flatMap, stray]
    simp [sum_one]
    ring
  · have : ∀ f, base o f .var = 0 := fun f => by simp [base, exchConv]
    simp only [this, varsOf, true_and, Int.zero_add]
    cases o.variables with
    | true => simp
    | false => simp [total]

/-- Properties: counted as found are those of the data sets; counted as converted are those written, with the estimated ones. -/
theorem properties_counted (o : Opts) (l : List File) :
    (run o l).found .prp = total (fun f => (((f.products.map Product.exch ++ f.elems.map Elem.exch).flatMap Exch.props).length : Int)) l ∧
      (run o l).conv .prp = total (fun f => (writtenProps o f).length + estimates o f) l := by
  obtain ⟨h1, -, h3⟩ := run_conv o l .prp
  rw [h1 (.inl (by decide)), h3]
  constructor <;> refine total_congr fun f _ => ?_
  · simp [foundIn, productFound, elemFound, List.length_flatMap, Function.comp_def, sum_len]
  · have hb : base o f .prp = ((written f).map fun x => exchConv o x .prp).sum := by
      rw [← sum_written]
      simp [base]
    rw [hb]
    unfold writtenProps estimates varsOf exchConv
    cases o.properties with
    | false => simp
    | true =>
      simp only [if_true, reduceCtorEq, if_false, Int.zero_add, Int.add_zero, false_and]
      rw [sum_split, sum_one, ← many_flatMap]
      congr 1
      unfold many
      rw [List.countP_eq_length_filter]

theorem unc_found_total (o : Opts) (l : List File) :
    (run o l).found .unc = total (fun f => many (fun a => a.dist.isSome) (amts f)) l := by
  rw [(run_conv o l .unc).2.2]
  refine total_congr fun f _ => ?_
  simp only [foundIn, productFound, elemFound, amts, many_append, many_flatMap]
  simp [sum_one]

theorem unc_base (o : Opts) (f : File) : base o f .unc + varsOf o f .unc = writtenUnc o f := by
  have hb : base o f .unc = ((written f).map fun x => exchConv o x .unc).sum := by
    rw [← sum_written]
    simp [base]
  rw [hb]
  unfold writtenUnc writtenProps varsOf exchConv
  cases o.properties with
  | false => simp [sum_one, many_nil]
  | true =>
    simp only [if_true, reduceCtorEq, if_false, Int.zero_add, Int.add_zero, false_and]
    rw [sum_split, sum_one, List.filter_flatMap, many_flatMap]

theorem known_some {d : Option Dist} (h : known d = true) : d.isSome = true := by
  rcases d with _ | _ | _ | _ <;> simp [known] at h ⊢

theorem many_sum_le {α β : Type} {p : β → Bool} {g h : α → List β} (l : List α)
    (H : ∀ a, many p (g a) ≤ many p (h a)) : many p (l.flatMap g) ≤ many p (l.flatMap h) := by
  induction l with
  | nil => simp [many_nil]
  | cons a l ih =>
    rw [List.flatMap_cons, List.flatMap_cons, many_append, many_append]
    have := H a
    omega

/-- What is written was there. -/
theorem written_le (o : Opts) (f : File) : writtenUnc o f ≤ many (fun a => a.dist.isSome) (amts f) := by
  have h1 : writtenUnc o f ≤ many (fun a => a.dist.isSome) ((written f).flatMap exchAmts) := by
    unfold writtenUnc writtenProps
    have hx : ∀ l : List Exch, many (fun x => known x.amt.dist) l +
        many (fun p => p.uncLeft && known p.amt.dist) ((l.flatMap Exch.props).filter Prop'.kept) ≤
        many (fun a => a.dist.isSome) (l.flatMap exchAmts) := by
      intro l
      induction l with
      | nil => simp [many_nil]
      | cons x l ih =>
        rw [many_cons, List.flatMap_cons, List.flatMap_cons, List.filter_append, many_append, many_append, exchAmts,
          many_cons, many_map]
        have a1 : one (known x.amt.dist) ≤ one x.amt.dist.isSome := by
          unfold one
          by_cases hk : known x.amt.dist = true
          · rw [if_pos hk, if_pos (known_some hk)]
          · rw [if_neg hk]; split <;> decide
        have a2 : many (fun p => p.uncLeft && known p.amt.dist) (x.props.filter Prop'.kept) ≤
            many (fun p => p.amt.dist.isSome) x.props := by
          rw [many_filter]
          refine many_le _ fun p hp => ?_
          simp only [Bool.and_eq_true] at hp
          exact known_some hp.1.2
        omega
    cases o.properties with
    | true => simpa using hx (written f)
    | false =>
      have := hx (written f)
      have := many_nonneg (fun p : Prop' => p.uncLeft && known p.amt.dist) (((written f).flatMap Exch.props).filter Prop'.kept)
      simp only [Bool.false_eq_true, if_false, many_nil]
      omega
  refine h1.trans ?_
  unfold written amts
  rw [List.flatMap_append, many_append, many_append, many_append]
  have h2 : many (fun a => a.dist.isSome) ((f.products.map Product.exch).flatMap exchAmts) ≤
      many (fun a => a.dist.isSome) (f.products.flatMap productAmts) := by
    rw [List.flatMap_map]
    refine many_sum_le _ fun p => ?_
    unfold productAmts
    rw [many_append]
    have := many_nonneg (fun a : Amt => a.dist.isSome) p.volume.toList
    omega
  have h3 : many (fun a => a.dist.isSome) (((f.elems.filter Elem.mapped).map Elem.exch).flatMap exchAmts) ≤
      many (fun a => a.dist.isSome) (f.elems.flatMap fun e => exchAmts e.exch) := by
    rw [List.flatMap_map]
    induction f.elems with
    | nil => simp
    | cons e l ih =>
      rw [List.flatMap_cons, many_append]
      have := many_nonneg (fun a : Amt => a.dist.isSome) (exchAmts e.exch)
      cases hm : e.mapped with
      | false => rw [List.filter_cons_of_neg (by simp [hm])]; omega
      | true => rw [List.filter_cons_of_pos (by simp [hm]), List.flatMap_cons, many_append]; omega
  have h4 := many_nonneg (fun a : Amt => a.dist.isSome) f.params
  omega

/-- Uncertainties, if ILCD knows all distributions or no variables are made, and no exchanges are added: counted are those in
the exchanges and flow properties written. Those of parameters and production volumes, which are written elsewhere, are not. -/
theorem uncertainties_counted_partial (o : Opts) (l : List File) (hs : o.sum = false)
    (h : o.variables = false ∨ ∀ f ∈ l, ∀ a ∈ amts f, a.dist ≠ some .other) :
    (run o l).conv .unc = total (writtenUnc o) l ∧ (run o l).conv .unc ≤ (run o l).found .unc := by
  have h1 : (run o l).conv .unc = total (writtenUnc o) l := by
    rw [(run_conv o l .unc).1 (.inr ⟨hs, h⟩)]
    exact total_congr fun f _ => unc_base o f
  refine ⟨h1, ?_⟩
  rw [h1, unc_found_total]
  exact total_le fun f _ => written_le o f

/-- If no exchanges are added, never more are counted than written. -/
theorem uncertainties_at_most (o : Opts) (l : List File) (hs : o.sum = false) :
    (run o l).conv .unc ≤ total (writtenUnc o) l ∧ (run o l).conv .unc ≤ (run o l).found .unc := by
  have h1 : (run o l).conv .unc ≤ total (writtenUnc o) l := by
    refine ((run_conv o l .unc).2.1 hs).trans (le_of_eq ?_)
    exact total_congr fun f _ => unc_base o f
  refine ⟨h1, h1.trans ?_⟩
  rw [unc_found_total]
  exact total_le fun f _ => written_le o f

/-! ### Numbers that are wrong -/

/-- A parameter with a variable of its own and a beta distribution. -/
def betaParam (i : Nat) : Amt := ⟨some .other, some (natStr i), false, [], [], false⟩

/-- The names of variables made for such parameters, and what they take away. -/
theorem beta_params (l : List Nat) (hl : l.Nodup) (s : St) (hs : ∀ i ∈ l, natStr i ∉ s.names) :
    (makeVars (l.map betaParam) s).conv .unc = s.conv .unc - l.length := by
  unfold makeVars
  induction l generalizing s with
  | nil => simp
  | cons i l ih =>
    rw [List.map_cons, List.foldl_cons]
    have hi := hs i (by simp)
    have hc : constructVariable (betaParam i) s = (create (natStr i) (some .other) s).count .var 1 := rfl
    rw [ih (List.nodup_cons.1 hl).2, hc, count_conv, create_conv]
    · simp [hi]
      ring
    · intro k hk
      rw [hc, count_names, create_names, if_neg hi]
      simp only [List.mem_append, List.mem_singleton, not_or]
      refine ⟨hs k (by simp [hk]), fun e => ?_⟩
      have := Output.natStr_inj e
      subst this
      exact (List.nodup_cons.1 hl).1 hk

/-- The number of uncertainties converted can be any number below nought. -/
theorem uncertainties_negative (n : Nat) (p : Bool) :
    let f : File := ⟨[], [], (List.range n).map betaParam⟩
    (run ⟨true, p, false⟩ [f]).conv .unc = -n ∧ (run ⟨true, p, false⟩ [f]).found .unc = n := by
  intro f
  constructor
  · have hb := body_adds ⟨true, p, false⟩ f St.start
    show (file ⟨true, p, false⟩ f St.start).conv .unc = _
    unfold file endFile
    simp only [Bool.false_eq_true, if_false, if_true]
    generalize f.params.foldl (fun s a => param a (foundParam a s))
      (f.elems.foldl (fun s e => elem ⟨true, p, false⟩ e (foundElem e s))
        (f.products.foldl (fun s q => product ⟨true, p, false⟩ q (foundProduct q s)) St.start)) = t at hb
    have ha : t.amts = (List.range n).map betaParam := by
      rw [hb.amts]
      simp [St.start, amts, f]
    rw [ha]
    have := beta_params (List.range n) List.nodup_range t (by rw [hb.names]; simp [St.start])
    unfold makeVars at this
    rw [this, hb.conv]
    simp [St.start, base, f, Function.comp_def]
  · rw [unc_found_total]
    simp [total, amts, f, betaParam, many, Function.comp_def]

/-- An elementary exchange with a normal distribution. -/
def normalElem : Elem := ⟨⟨⟨some .normal, none, false, [], [], false⟩, [], false⟩, true, 0⟩

theorem merge_normal (n : Nat) (s : St) :
    (mergeAll (List.replicate n normalElem) [(0, some .normal)] s).conv .unc = s.conv .unc + n := by
  induction n generalizing s with
  | zero => simp [mergeAll]
  | succ n ih =>
    rw [List.replicate_succ]
    show (mergeAll (List.replicate n normalElem) [(0, some .normal)] (getUncertainty (some .normal) s)).conv .unc = _
    rw [ih, unc_conv]
    simp [known, one]
    ring

/-- With exchanges added up, more uncertainties are counted as converted than there are. -/
theorem uncertainties_exceed (n : Nat) (v p : Bool) :
    let f : File := ⟨[], List.replicate (n + 1) normalElem, []⟩
    (run ⟨v, p, true⟩ [f]).conv .unc = 2 * n + 1 ∧ (run ⟨v, p, true⟩ [f]).found .unc = n + 1 := by
  intro f
  constructor
  · have hb := body_adds ⟨v, p, true⟩ f St.start
    show (file ⟨v, p, true⟩ f St.start).conv .unc = _
    unfold file endFile
    simp only [if_true]
    generalize f.params.foldl (fun s a => param a (foundParam a s))
      (f.elems.foldl (fun s e => elem ⟨v, p, true⟩ e (foundElem e s))
        (f.products.foldl (fun s q => product ⟨v, p, true⟩ q (foundProduct q s)) St.start)) = t at hb
    have ha : t.amts = List.replicate (n + 1) normalElem.exch.amt := by
      rw [hb.amts]
      simp [St.start, amts, f, exchAmts, normalElem, List.flatMap_replicate]
    have hv : (if v = true then t.amts.foldl (fun s a => constructVariable a s) t else t) = t := by
      cases v with
      | false => rfl
      | true =>
        rw [if_pos rfl, ha]
        induction n + 1 with
        | zero => rfl
        | succ k ih => rw [List.replicate_succ, List.foldl_cons]; exact ih
    rw [hv]
    show (mergeAll (List.replicate n normalElem) [(0, some .normal)] t).conv .unc = _
    rw [merge_normal, hb.conv]
    have : base ⟨v, p, true⟩ f .unc = n + 1 := by
      simp [base, f, normalElem, exchConv, known, one, many]
    rw [this]
    simp [St.start]
    ring
  · rw [unc_found_total]
    simp [total, amts, f, exchAmts, normalElem, many_flatMap, many_cons, many_nil, one]

/-- A product with dry mass and wet mass, both written, for which the water content is estimated. -/
def wetProduct : Product :=
  ⟨⟨⟨none, none, false, [], [], false⟩, [⟨⟨none, none, false, [], [], false⟩, true, false⟩,
    ⟨⟨none, none, false, [], [], false⟩, true, false⟩], true⟩, none, false⟩

/-- Estimated water contents make more properties converted than there are. -/
theorem properties_exceed (n : Nat) (v s : Bool) :
    let f : File := ⟨List.replicate n wetProduct, [], []⟩
    (run ⟨v, true, s⟩ [f]).conv .prp = 3 * n ∧ (run ⟨v, true, s⟩ [f]).found .prp = 2 * n := by
  intro f
  obtain ⟨h1, h2⟩ := properties_counted ⟨v, true, s⟩ [f]
  rw [h1, h2]
  constructor
  · simp [total, f, writtenProps, estimates, written, wetProduct, many, List.flatMap_replicate]
    rw [List.countP_replicate, if_pos (by rfl)]
    ring
  · simp [total, f, wetProduct]
    ring

/-- Parameters may all have uncertainties, written with their variables: none is counted. -/
theorem parameters_uncounted (o : Opts) (l : List Amt) (hs : o.sum = false) (h : ∀ a ∈ l, known a.dist = true) :
    (run o [⟨[], [], l⟩]).conv .unc = 0 ∧ (run o [⟨[], [], l⟩]).found .unc = l.length := by
  constructor
  · rw [(uncertainties_counted_partial o _ hs (.inr ?_)).1]
    · simp [total, writtenUnc, writtenProps, written, many]
    · intro f hf a ha
      rw [List.mem_singleton] at hf
      subst hf
      simp only [amts, List.flatMap_nil, List.nil_append] at ha
      intro e
      have := h a ha
      rw [e] at this
      cases this
  · rw [unc_found_total]
    simp only [total, amts, List.map_cons, List.map_nil, List.flatMap_nil, List.nil_append, List.sum_cons, List.sum_nil, many]
    rw [List.countP_eq_length.2 fun a ha => known_some (h a ha)]
    simp

/-! ### Exchanges that are added -/

theorem known_sums (d : Option Dist) (l : List (Option Dist)) : known (l.foldl sumDist d) = knownOfSum d l := by
  induction l generalizing d with
  | nil => simp [knownOfSum]
  | cons x l ih =>
    rw [List.foldl_cons, ih]
    rcases d with _ | _ | _ | _ <;> rcases x with _ | _ | _ | _ <;>
      simp [knownOfSum, sumDist, known]
    exact fun h x hx => .inl (h x hx)

theorem merge_same (k : Nat) (l : List Elem) (h : ∀ e ∈ l, e.mapped = true ∧ e.key = k) (d : Option Dist)
    (firsts : List (Nat × Option Dist)) (s : St) :
    (mergeAll l (aset k d firsts) s).conv .unc = s.conv .unc +
      many (fun i => knownOfSum d ((l.take (i + 1)).map fun e => e.exch.amt.dist)) (List.range l.length) := by
  induction l generalizing d firsts s with
  | nil => simp [mergeAll, many]
  | cons e l ih =>
    obtain ⟨hm, hk⟩ := h e (by simp)
    rw [mergeAll, if_pos hm, hk, aget_aset_self]
    simp only
    rw [ih (fun e he => h e (by simp [he])), unc_conv, if_pos rfl, List.length_cons, List.range_succ_eq_map, many_cons,
      many_map]
    have h1 : known (sumDist d e.exch.amt.dist) =
        knownOfSum d (((e :: l).take (0 + 1)).map fun e => e.exch.amt.dist) := by
      rw [← known_sums]; rfl
    have h2 : ∀ i, knownOfSum (sumDist d e.exch.amt.dist) ((l.take (i + 1)).map fun e => e.exch.amt.dist) =
        knownOfSum d (((e :: l).take (Nat.succ i + 1)).map fun e => e.exch.amt.dist) := by
      intro i
      rw [← known_sums, ← known_sums]
      rfl
    simp only [h1, h2]
    ring

/-- **C156.** Elementary exchanges of one flow that are added are counted once more for every exchange added, as long as
ILCD knows the uncertainty of the sum so far, although one uncertainty at most is written. -/
theorem sums_counted (e : Elem) (l : List Elem) (h : ∀ x ∈ e :: l, x.mapped = true ∧ x.key = e.key) (s : St) :
    (mergeAll (e :: l) [] s).conv .unc = s.conv .unc +
      many (fun i => knownOfSum e.exch.amt.dist ((l.take (i + 1)).map fun x => x.exch.amt.dist)) (List.range l.length) := by
  rw [mergeAll, if_pos (h e (by simp)).1]
  simp only [aget]
  exact merge_same e.key l (fun x hx => h x (by simp [hx])) _ [] s

/-- Three exchanges of one flow, the last with an uncertainty that is not normal: one more is counted. -/
example : let x (d : Option Dist) : Elem := ⟨⟨⟨d, none, false, [], [], false⟩, [], false⟩, true, 1⟩
    (∀ e ∈ [x (some .normal), x (some .normal), x (some .known)], e.mapped = true ∧ e.key = 1) ∧
    many (fun i => knownOfSum (some .normal) ((List.take (i + 1) [some .normal, some .known]))) (List.range 2) = 1 := by
  decide

/-! ### Data sets that meet the hypotheses -/

/-- A flow with a lognormal amount, a property with a normal one, a production volume with a beta one. -/
def sampleFile : File :=
  ⟨[⟨⟨⟨some .known, some c!"a", false, [], [], false⟩, [⟨⟨some .normal, none, false, [], [], false⟩, true, true⟩], false⟩,
      some ⟨some .known, some c!"pv", true, [], [], false⟩, true⟩],
    [⟨⟨⟨none, none, false, [], [], false⟩, [], false⟩, true, 1⟩, ⟨⟨⟨some .known, none, false, [], [], false⟩, [], false⟩, false, 2⟩],
    [⟨some .normal, some c!"k", false, [], [], false⟩]⟩

/-- Five uncertainties, two of them counted. -/
example : (∀ f ∈ [sampleFile], ∀ a ∈ amts f, a.dist ≠ some .other) ∧
    total (writtenUnc ⟨true, true, false⟩) [sampleFile] = 2 ∧ (run ⟨true, true, false⟩ [sampleFile]).found .unc = 5 := by
  decide +kernel

example : ∀ a ∈ sampleFile.params, known a.dist = true := by decide

example : (run ⟨true, true, true⟩ [sampleFile]).conv .elf = 1 ∧ (run ⟨true, true, true⟩ [sampleFile]).found .elf = 2 ∧
    (run ⟨true, true, true⟩ [sampleFile]).conv .var = 3 := by decide +kernel

end Verif.Stats
