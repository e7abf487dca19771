/-
The kind of calorific value an activity states does not reach its energy flows.
-/
import Verif.Model.Energy
import Verif.Spec.Energy
import Verif.Props.RefUnits
import Verif.Lemmas.Assoc

namespace Verif.Energy

open Verif.RefUnits Verif.Units
open Spec

theorem during_energy (f : File) (a : Attrs) : energyOf (during f a) = energyOf a := by
  unfold during energyOf
  cases f.code with
  | none => rfl
  | some c =>
    show (aget c!"_energy" (aset c!"energy" _ a)).join = _
    rw [aget_aset, if_neg (by decide)]

theorem reset_energy (a : Attrs) : energyOf (reset a) = none := by
  unfold energyOf reset
  rw [aget_aset_self]
  rfl

theorem products_energy {hash : Str → Str} {a b : Attrs} (h : energyOf a = energyOf b) (l : List Str) (s : St) :
    products hash a l s = products hash b l s := by
  induction l generalizing s with
  | nil => rfl
  | cons d l ih =>
    unfold products
    rw [h]
    simp only [ih]

/-- The conversion of any data sets is the same as if none of them stated a kind of calorific value. -/
theorem kind_ignored (hash : Str → Str) (l : List File) (a : Attrs) (s : St) :
    run hash l a s = run hash (l.map fun f => { f with code := none }) a s := by
  suffices ∀ b, energyOf a = energyOf b → run hash l a s = run hash (l.map fun f => { f with code := none }) b s from
    this a rfl
  induction l generalizing a s with
  | nil => intro b _; rfl
  | cons f l ih =>
    intro b h
    rw [List.map_cons]
    unfold run
    rw [products_energy (a := during f a) (b := during { f with code := none } b)
      (by rw [during_energy, during_energy, h])]
    have := fun s => ih (reset (during f a)) s (reset (during { f with code := none } b))
      (by rw [reset_energy, reset_energy])
    simp only [this]

/-- What is used of `uuid_from_string`: the key of the dimension of energy. -/
def EnergyHash (hash : Str → Str) : Prop := hash c!"[length] ** 2 * [mass] / [time] ** 2" = energyKey

theorem correct_energy {d : Str} (h : IsEnergy d) : correctDim d = c!"[length] ** 2 * [mass] / [time] ** 2" := by
  rcases h with rfl | rfl <;> decide

/-- The choice of the flow property itself is right for every kind. -/
theorem unit_kind {hash : Str → Str} (hh : EnergyHash hash) {code d : Str} (hc : code ∈ [c!"0", c!"1", c!"2"])
    (hd : IsEnergy d) {s s' : St} {r : Ref} (h : unitProperty hash (aget code Tables.energy) d s = .ok (r, s')) :
    r.name = (stated (some code)).name ∧ IsOf r.id (stated (some code)) := by
  obtain ⟨k, w, hk, hw, hr⟩ := unitProperty_row h
  obtain ⟨hi, -, hn, -⟩ := refer_ref hr
  rw [correct_energy hd, hh] at hk
  have key : ∀ c ∈ [c!"0", c!"1", c!"2"], ∃ w ∈ ((energyProp (aget c Tables.energy) energyKey).bind fun k =>
      aget k pintToIlcdFp), w.name = (stated (some c)).name ∧
        ∃ f ∈ aget w.fp fpFiles, f.name = (stated (some c)).name := by
    decide +kernel
  obtain ⟨w', h1, h2, f, h3, h4⟩ := key code hc
  rw [hk] at h1
  simp only [Option.bind_some, hw, Option.mem_def, Option.some.injEq] at h1
  subst h1
  rw [hi, hn]
  exact ⟨h2, f, h3, h4⟩

theorem unit_none {hash : Str → Str} (hh : EnergyHash hash) {d : Str} (hd : IsEnergy d) {s s' : St} {r : Ref}
    (h : unitProperty hash none d s = .ok (r, s')) : r.name = Kind.net.name ∧ IsOf r.id .net := by
  have : unitProperty hash none d s = unitProperty hash (aget c!"1" Tables.energy) d s := by
    unfold unitProperty
    rw [correct_energy hd, hh]
    congr 1
  rw [this] at h
  exact unit_kind hh (by decide) hd h

theorem products_none {hash : Str → Str} (hh : EnergyHash hash) {a : Attrs} (ha : energyOf a = none) {l : List Str}
    {s s' : St} {rs : List Ref} (h : products hash a l s = .ok (rs, s')) :
    List.Forall₂ (fun d r => IsEnergy d → r.name = Kind.net.name ∧ IsOf r.id .net) l rs := by
  induction l generalizing s rs with
  | nil => cases h; exact .nil
  | cons d l ih =>
    unfold products at h
    rw [ha] at h
    simp only [bind, Except.bind] at h
    split at h
    · cases h
    · rename_i p hp
      obtain ⟨r, s1⟩ := p
      simp only at h
      split at h
      · cases h
      · rename_i p' hp'
        obtain ⟨rs1, s2⟩ := p'
        injection h with h
        injection h with h1 h2
        subst h1 h2
        exact .cons (fun hd => unit_none hh hd hp) (ih hp')

/-- Whatever the data sets state, their energy flows are in net calorific value. -/
theorem always_net {hash : Str → Str} (hh : EnergyHash hash) {l : List File} {a : Attrs} (ha : energyOf a = none) {s s' : St}
    {rss : List (List Ref)} (h : run hash l a s = .ok (rss, s')) :
    List.Forall₂ (fun f rs => List.Forall₂ (fun d r => IsEnergy d → r.name = Kind.net.name ∧ IsOf r.id .net) f.dims rs)
      l rss := by
  induction l generalizing a s rss with
  | nil => cases h; exact .nil
  | cons f l ih =>
    unfold run at h
    simp only [bind, Except.bind] at h
    split at h
    · cases h
    · rename_i p hp
      obtain ⟨rs, s1⟩ := p
      simp only at h
      split at h
      · cases h
      · rename_i p' hp'
        obtain ⟨rss1, s2⟩ := p'
        injection h with h
        injection h with h1 h2
        subst h1 h2
        exact .cons (products_none hh (by rw [during_energy, ha]) hp) (ih (reset_energy _) hp')

theorem not_both {fp : Str} (h : IsOf fp .net) (h' : IsOf fp .gross) : False := by
  obtain ⟨f, h1, h2⟩ := h
  obtain ⟨g, h3, h4⟩ := h'
  rw [h1] at h3
  cases h3
  rw [h2] at h4
  exact absurd h4 (by decide)

/-- The energy flows of a data set are in the kind it states exactly if that is not gross. -/
theorem kind_kept_iff {hash : Str → Str} (hh : EnergyHash hash) {f : File} {a : Attrs} (ha : energyOf a = none) {s s' : St}
    {rs : List Ref} (h : products hash (during f a) f.dims s = .ok (rs, s')) (he : ∃ d ∈ f.dims, IsEnergy d) :
    List.Forall₂ (fun d r => IsEnergy d → IsOf r.id (stated f.code)) f.dims rs ↔ f.code ≠ some c!"2" := by
  have h1 := products_none hh (by rw [during_energy, ha]) h
  constructor
  · intro h2 hc
    rw [hc] at h2
    obtain ⟨d, hd, hde⟩ := he
    obtain ⟨i, hi, rfl⟩ := List.getElem_of_mem hd
    have hl := h1.length_eq
    have h3 := (List.forall₂_iff_get.1 h1).2 i hi (hl ▸ hi) hde
    have h4 := (List.forall₂_iff_get.1 h2).2 i hi (hl ▸ hi) hde
    exact not_both h3.2 h4
  · intro hc
    refine h1.imp fun d r h3 hd => ?_
    rw [stated, if_neg hc]
    exact (h3 hd).2

/-- The energy flows of a data set are converted, whatever it states. -/
theorem energy_converted {hash : Str → Str} (hh : EnergyHash hash) {a : Attrs} (ha : energyOf a = none) {d : Str}
    (hd : IsEnergy d) (s : St) : ∃ x, unitProperty hash (energyOf a) d s = .ok x := by
  rw [ha, unit_ok_iff, correct_energy hd, hh]
  exact ⟨energyKey, rfl, by decide +kernel⟩

/-- One data set stating gross calorific values, with one flow in energy and one in another unit. -/
example (hash : Str → Str) (hh : EnergyHash hash) (s : St) :
    let f : File := ⟨some c!"2", [c!"[mass] * [length] ** 2 / [time] ** 2"]⟩
    ∃ rs s', products hash (during f initial) f.dims s = .ok (rs, s') ∧ (∃ d ∈ f.dims, IsEnergy d) ∧
      ¬ List.Forall₂ (fun d r => IsEnergy d → IsOf r.id (stated f.code)) f.dims rs := by
  intro f
  have hi : energyOf initial = none := rfl
  obtain ⟨⟨r, s1⟩, h⟩ := energy_converted hh (a := during f initial) (by rw [during_energy, hi])
    (d := c!"[mass] * [length] ** 2 / [time] ** 2") (.inr rfl) s
  have hp : products hash (during f initial) f.dims s = .ok ([r], s1) := by
    show products hash (during f initial) [c!"[mass] * [length] ** 2 / [time] ** 2"] s = _
    unfold products
    simp only [h, bind, Except.bind, products]
  have he : ∃ d ∈ f.dims, IsEnergy d := ⟨c!"[mass] * [length] ** 2 / [time] ** 2", by simp [f], .inr rfl⟩
  exact ⟨_, _, hp, he, fun hf => ((kind_kept_iff hh hi hp he).1 hf) rfl⟩

end Verif.Energy
