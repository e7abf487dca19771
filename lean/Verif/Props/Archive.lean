/-
C122: the archive written is complete in itself.
-/
import Verif.Lemmas.Archive

namespace Verif.Archive

open Verif Verif.Archive.Spec

/-- The archive after a conversion. -/
private theorem whole {env : Env} (hr : Real env) {l : List (Str × List Op)} {s : St}
    (h : archive env l St.start = .ok s) : Inv env (Target l) s :=
  (archive_inv hr (start_inv env _) (fun _ h => h) h).1

private theorem leads_iff {env : Env} {T : Str → Prop} {s : St} (h : Inv env T s) (r : Ref) :
    Leads s.dataSets r ↔ Has s r := by
  obtain ⟨k, i⟩ := r
  unfold Leads Has St.dataSets
  constructor
  · rintro ⟨f, hf, rfl, rfl⟩
    rcases List.mem_append.1 hf with hf | hf
    · rcases List.mem_append.1 hf with hf | hf
      · obtain ⟨p, hp, rfl⟩ := List.mem_map.1 hf
        exact .inl ⟨p.1, List.mem_map.2 ⟨p, hp, rfl⟩, (h.named p hp).symm⟩
      · obtain ⟨i, hi, rfl⟩ := List.mem_map.1 hf
        exact .inr (.inl ⟨rfl, hi⟩)
    · obtain ⟨i, hi, rfl⟩ := List.mem_map.1 hf
      exact .inr (.inr ⟨rfl, hi⟩)
  · rintro (⟨x, hx, e⟩ | ⟨e, hi⟩ | ⟨e, hi⟩)
    · obtain ⟨p, hp, rfl⟩ := List.mem_map.1 hx
      have := (h.named p hp).trans e
      injection this with h1 h2
      exact ⟨p.2, by simp only [List.mem_append]; exact .inl (.inl (List.mem_map.2 ⟨p, hp, rfl⟩)), h1, h2⟩
    · exact ⟨⟨.flowProperty, i, fpRefs i⟩, by
        simp only [List.mem_append]; exact .inl (.inr (List.mem_map.2 ⟨i, hi, rfl⟩)), e.symm, rfl⟩
    · exact ⟨⟨.unitGroup, i, ugRefs i⟩, by
        simp only [List.mem_append]; exact .inr (List.mem_map.2 ⟨i, hi, rfl⟩), e.symm, rfl⟩

/-- **C122** for the processes: every reference in a process of the archive leads to a data set of the archive. -/
theorem process_leads {env : Env} (hr : Real env) {l : List (Str × List Op)} {s : St}
    (h : archive env l St.start = .ok s) : ∀ p ∈ s.processes, ∀ r ∈ p.2, Leads s.dataSets r := by
  have hi := whole hr h
  intro p hp r hr
  rw [leads_iff hi]
  exact hi.processes p hp r hr

private theorem leads_contact {env : Env} {T : Str → Prop} {s : St} (h : Inv env T s) (c : Str) :
    Leads s.dataSets ⟨.contact, c⟩ ↔ (Kind.contact, c) ∈ s.files.map Prod.fst := by
  rw [leads_iff h]
  unfold Has
  constructor
  · rintro (⟨k, hk, e⟩ | ⟨e, -⟩ | ⟨e, -⟩)
    · obtain ⟨a, b⟩ := k
      simp only [keyRef, Ref.mk.injEq] at e
      obtain ⟨rfl, e⟩ := e
      simp at e
      exact e ▸ hk
    · cases e
    · cases e
  · intro hk
    exact .inl ⟨_, hk, by simp [keyRef]⟩

private theorem leads_fp {env : Env} {T : Str → Prop} {s : St} (h : Inv env T s) (p : Str) :
    Leads s.dataSets ⟨.flowProperty, p⟩ ↔ p ∈ s.units.outFp := by
  rw [leads_iff h]
  unfold Has
  constructor
  · rintro (⟨k, hk, e⟩ | ⟨-, e⟩ | ⟨e, -⟩)
    · simp only [keyRef, Ref.mk.injEq] at e
      exact absurd e.1 (h.kinds k hk)
    · exact e
    · cases e
  · intro hp
    exact .inr (.inl ⟨rfl, hp⟩)

/-- The flow properties in the archive are those the exchanges and their properties ask for. -/
theorem property_there_iff {env : Env} (hr : Real env) {l : List (Str × List Op)} {s : St}
    (h : archive env l St.start = .ok s) (p : Str) :
    Leads s.dataSets ⟨.flowProperty, p⟩ ↔ ∃ o ∈ allOps l, Asks env.hash p o := by
  rw [leads_fp (whole hr h), (archive_exact hr (start_inv env (Target l)) (fun _ h => h) h).1]
  simp [St.start, RefUnits.St.start]

/-- The contacts in the archive are those of the data sets and the three every archive has. -/
theorem contact_there_iff {env : Env} (hr : Real env) {l : List (Str × List Op)} {s : St}
    (h : archive env l St.start = .ok s) (c : Str) :
    Leads s.dataSets ⟨.contact, c⟩ ↔ (∃ f ∈ defaultFiles, f.kind = .contact ∧ f.id = c) ∨ Op.contact c ∈ allOps l := by
  rw [leads_contact (whole hr h), (archive_exact hr (start_inv env (Target l)) (fun _ h => h) h).2.1]
  simp only [St.start, List.map_map, List.mem_map, Function.comp, Prod.mk.injEq]

private theorem has_default {env : Env} {T : Str → Prop} {s : St} (h : Inv env T s) {i : Str}
    (hi : i = ilcdFormat ∨ i = ecospoldFormat ∨ i = entryLevel ∨ i = complianceDraft) : Has s ⟨.source, i⟩ := by
  have : ∃ f ∈ defaultFiles, f.kind = .source ∧ f.id = i := by
    rcases hi with rfl | rfl | rfl | rfl <;> simp [defaultFiles]
  obtain ⟨f, hf, h1, h2⟩ := this
  have := h.defaults f hf
  rwa [h1, h2] at this

private theorem hydrogen_preceding : aget c!"ba979533-5104-41a8-aa49-1a94582020ea" RefUnits.fpFiles = none := by
  decide +kernel

/-- The references of a flow property. -/
private theorem fp_refs {env : Env} {T : Str → Prop} {s : St} (h : Inv env T s) {i : Str} (hi : i ∈ s.units.outFp) :
    (∀ r ∈ fpRefs i, Has s r) ↔ i ≠ hydrogen := by
  constructor
  · rintro hall rfl
    have := hall ⟨.flowProperty, c!"ba979533-5104-41a8-aa49-1a94582020ea"⟩ (by simp [fpRefs])
    rw [← leads_iff h, leads_fp h] at this
    obtain ⟨f, hf, -⟩ := h.units.group _ this
    rw [hydrogen_preceding] at hf
    cases hf
  · intro hne r hr
    obtain ⟨f, hf, hg⟩ := h.units.group _ hi
    simp only [fpRefs, hf, if_neg hne, Option.toList_some, List.map_cons, List.map_nil, List.append_nil, List.mem_append,
      List.mem_singleton] at hr
    rcases hr with ((rfl | rfl) | hr) | hr
    · exact .inr (.inr ⟨rfl, hg⟩)
    · exact has_default h (.inl rfl)
    · split at hr
      · simp at hr
      · simp only [List.mem_singleton] at hr
        subst hr
        exact has_default h (by split <;> simp)
    · split at hr
      · simp at hr
      · simp only [List.mem_singleton] at hr
        subst hr
        exact .inr (.inl ⟨rfl, hi⟩)

private theorem ug_refs {env : Env} {T : Str → Prop} {s : St} (h : Inv env T s) {i : Str} (hi : i ∈ s.units.outUg) :
    ∀ r ∈ ugRefs i, Has s r := by
  intro r hr
  simp only [ugRefs, List.cons_append, List.nil_append, List.mem_cons] at hr
  rcases hr with rfl | rfl | hr
  · exact has_default h (by split <;> simp)
  · exact has_default h (.inl rfl)
  · split at hr
    · simp at hr
    · simp only [List.mem_singleton] at hr
      subst hr
      exact .inr (.inr ⟨rfl, hi⟩)

private theorem elem_refs {env : Env} (hr : Real env) {T : Str → Prop} {s : St} (h : Inv env T s) {t : Str} {e : ElemFile}
    (he : env.elem t = some e) (ht : Has s ⟨.flow, t⟩) :
    (∀ r ∈ e.refs t, Has s r) ↔
      (∀ p ∈ e.props, Has s ⟨.flowProperty, p⟩) ∧ ∀ c ∈ e.owner.toList, Has s ⟨.contact, c⟩ := by
  constructor
  · intro hall
    exact ⟨fun p hp => hall _ (by simp [ElemFile.refs, hp]), fun c hc => hall _ (by
      simp only [ElemFile.refs, List.mem_append]; exact .inr (List.mem_map.2 ⟨c, hc, rfl⟩))⟩
  · rintro ⟨hp, hc⟩ r hrr
    simp only [ElemFile.refs, List.mem_append] at hrr
    rcases hrr with (((hrr | hrr) | hrr) | hrr) | hrr
    · obtain ⟨p, hm, rfl⟩ := List.mem_map.1 hrr
      exact hp p hm
    · simp only [List.mem_cons, List.not_mem_nil, or_false] at hrr
      rcases hrr with rfl | rfl
      · exact has_default h (.inl rfl)
      · rcases hr.compliance _ _ he with hc | hc
        · exact has_default h (.inr (.inr (.inl hc)))
        · exact has_default h (.inr (.inr (.inr hc)))
    · split at hrr
      · simp only [List.mem_singleton] at hrr
        subst hrr
        exact has_default h (.inr (.inl rfl))
      · simp at hrr
    · split at hrr
      · simp only [List.mem_singleton] at hrr
        subst hrr
        exact ht
      · simp at hrr
    · obtain ⟨c, hm, rfl⟩ := List.mem_map.1 hrr
      exact hc c hm

/-- **C122**, exactly: an archive is complete in itself unless the hydrogen content is asked for, or an elementary flow of the
package states a flow property that no exchange asks for, or names an owner that is no contact of the data sets. -/
theorem self_contained_iff {env : Env} (hr : Real env) {l : List (Str × List Op)} {s : St}
    (h : archive env l St.start = .ok s) :
    SelfContained s.dataSets s.processes ↔
      (¬ ∃ o ∈ allOps l, Asks env.hash hydrogen o) ∧
      ∀ t, Target l t → ∀ e, env.elem t = some e →
        (∀ p ∈ e.props, ∃ o ∈ allOps l, Asks env.hash p o) ∧
        ∀ c, e.owner = some c → (∃ f ∈ defaultFiles, f.kind = .contact ∧ f.id = c) ∨ Op.contact c ∈ allOps l := by
  have hi := whole hr h
  have hcop := (archive_exact hr (start_inv env (Target l)) (fun _ h => h) h).2.2
  rw [← property_there_iff hr h, leads_fp hi]
  simp only [← property_there_iff hr h, ← contact_there_iff hr h, leads_iff hi]
  unfold SelfContained
  simp only [leads_iff hi]
  constructor
  · rintro ⟨-, hall⟩
    refine ⟨?_, ?_⟩
    · intro hh
      exact (fp_refs hi hh).1 (fun r hr => hall ⟨.flowProperty, hydrogen, fpRefs hydrogen⟩ (by
        simp only [St.dataSets, List.mem_append]; exact .inl (.inr (List.mem_map.2 ⟨_, hh, rfl⟩))) r hr) rfl
    · intro t ht e he
      obtain ⟨e', he', hget⟩ := hcop t (.inr ht)
      rw [he] at he'
      injection he' with he'
      subst he'
      have hm := aget_mem hget
      have hk := hi.named _ hm
      simp only at hk
      have hfl : Has s ⟨.flow, t⟩ := .inl ⟨_, List.mem_map.2 ⟨_, hm, rfl⟩, hk.symm⟩
      obtain ⟨a, b⟩ := (elem_refs hr hi he hfl).1 (fun r hr => hall ⟨.flow, t, e.refs t⟩ (by
        simp only [St.dataSets, List.mem_append]; exact .inl (.inl (List.mem_map.2 ⟨_, hm, rfl⟩))) r hr)
      exact ⟨a, fun c hc => b c (by simp [hc])⟩
  · rintro ⟨hh, hall⟩
    refine ⟨hi.processes, ?_⟩
    intro f hf
    simp only [St.dataSets, List.mem_append] at hf
    rcases hf with (hf | hf) | hf
    · obtain ⟨p, hp, rfl⟩ := List.mem_map.1 hf
      rcases hi.good p hp with hg | ⟨e, he, ht, hk, hrefs⟩
      · exact hg
      · rw [hrefs]
        have hfl : Has s ⟨.flow, p.2.id⟩ := by
          refine .inl ⟨p.1, List.mem_map.2 ⟨p, hp, rfl⟩, ?_⟩
          rw [← hi.named p hp]
          have := congrArg Ref.kind (hi.named p hp)
          simp only [hk, keyRef] at this
          rw [this]
        obtain ⟨a, b⟩ := hall _ ht e he
        exact (elem_refs hr hi he hfl).2 ⟨a, fun c hc => b c (by simpa using hc)⟩
    · obtain ⟨i, hfi, rfl⟩ := List.mem_map.1 hf
      exact (fp_refs hi hfi).2 (by rintro rfl; exact hh hfi)
    · obtain ⟨i, hfi, rfl⟩ := List.mem_map.1 hf
      exact ug_refs hi hfi

/-- **C122**, the part that holds: if every elementary flow states no flow property but that of the amount of its exchange and
names no owner, and the hydrogen content does not occur, the archive is complete in itself. -/
theorem self_contained_partial {env : Env} (hr : Real env) {l : List (Str × List Op)} {s : St}
    (h : archive env l St.start = .ok s) (hh : ∀ o ∈ allOps l, ¬ Asks env.hash hydrogen o)
    (he : ∀ t e d ps, Op.elementary t e d ps ∈ allOps l → ∀ f, env.elem t = some f →
      (∀ p ∈ f.props, AsksUnit env.hash e d p) ∧ f.owner = none) :
    SelfContained s.dataSets s.processes := by
  rw [self_contained_iff hr h]
  refine ⟨fun ⟨o, ho, hA⟩ => hh o ho hA, ?_⟩
  rintro t ⟨e, d, ps, ht⟩ f hf
  obtain ⟨a, b⟩ := he t e d ps ht f hf
  exact ⟨fun p hp => ⟨_, ht, .inr (a p hp)⟩, by simp [b]⟩

/-- The first exception: the flow "carcass meal" states two calorific values beside its mass. An archive with an exchange of
it in which neither is asked for is not complete. -/
theorem several_properties {env : Env} (hr : Real env) {l : List (Str × List Op)} {s : St} {e : ElemFile}
    (he : env.elem c!"eb5924c9-5e3d-435b-a988-9937a73b44d6" = some e)
    (hp : c!"93a60a56-a3c8-14da-a746-0800200c9a66" ∈ e.props) (ht : Target l c!"eb5924c9-5e3d-435b-a988-9937a73b44d6")
    (hn : ∀ o ∈ allOps l, ¬ Asks env.hash c!"93a60a56-a3c8-14da-a746-0800200c9a66" o)
    (h : archive env l St.start = .ok s) : ¬ SelfContained s.dataSets s.processes := by
  rw [self_contained_iff hr h]
  rintro ⟨-, h1⟩
  obtain ⟨o, ho, hA⟩ := (h1 _ ht e he).1 _ hp
  exact hn o ho hA

/-- The second exception: 22 elementary flows name an owner that is in no archive, unless a data set brings the contact along. -/
theorem owner_missing {env : Env} (hr : Real env) {l : List (Str × List Op)} {s : St} {e : ElemFile}
    (he : env.elem c!"b9a77a95-26bb-465c-a558-b08f2cc7716c" = some e)
    (hp : e.owner = some c!"623edf96-39d1-4e6f-9892-674c7228546b") (ht : Target l c!"b9a77a95-26bb-465c-a558-b08f2cc7716c")
    (hn : Op.contact c!"623edf96-39d1-4e6f-9892-674c7228546b" ∉ allOps l)
    (h : archive env l St.start = .ok s) : ¬ SelfContained s.dataSets s.processes := by
  rw [self_contained_iff hr h]
  rintro ⟨-, h1⟩
  rcases (h1 _ ht e he).2 _ hp with h | h
  · revert h
    decide +kernel
  · exact hn h

/-- The third exception: a product with the property "hydrogen content" in any unit. -/
theorem hydrogen_missing {env : Env} (hr : Real env) {l : List (Str × List Op)} {s : St} {fid d : Str} {e : Option Str}
    {ps : List Property} {p : Property} (hp : p ∈ ps) (hu : p.hasUnit = true)
    (hid : p.id = c!"2d23d1bb-e137-4ade-83fc-fbd0421e6cd5") (ho : Op.product fid e d ps ∈ allOps l)
    (h : archive env l St.start = .ok s) : ¬ SelfContained s.dataSets s.processes := by
  rw [self_contained_iff hr h]
  rintro ⟨h1, -⟩
  have hw : ∃ w, aget c!"2d23d1bb-e137-4ade-83fc-fbd0421e6cd5" Units.pintToIlcdFp = some w ∧ w.fp = hydrogen := by
    have : (match aget c!"2d23d1bb-e137-4ade-83fc-fbd0421e6cd5" Units.pintToIlcdFp with
      | some w => decide (w.fp = hydrogen) | none => false) = true := by decide +kernel
    split at this
    · rename_i w hw; exact ⟨w, hw, of_decide_eq_true this⟩
    · cases this
  exact h1 ⟨_, ho, .inl ⟨p, hp, hu, by rw [hid]; exact hw⟩⟩

/-! ### Examples -/

/-- A package with the three flows used here, and dimensions known by their texts. -/
private def sample : Env where
  hash d := if d = c!"[mass]" then c!"7844486d-bbaf-3c45-9487-7fe3476c5b6f" else
    if d = c!"[length] ** 3" then c!"5f4bed1b-40a0-39cd-9fbe-798c54c5d5a5" else c!"00000000-0000-0000-0000-000000000000"
  conv f := if f.length = 36 then .ok f else .error .valueError
  elem t := if t = c!"eb5924c9-5e3d-435b-a988-9937a73b44d6" then
      some ⟨[c!"93a60a56-a3c8-11da-a746-0800200b9a66", c!"93a60a56-a3c8-11da-a746-0800200c9a66",
        c!"93a60a56-a3c8-14da-a746-0800200c9a66"], entryLevel, false, true, none⟩
    else if t = c!"b9a77a95-26bb-465c-a558-b08f2cc7716c" then
      some ⟨[c!"93a60a56-a3c8-22da-a746-0800200c9a66"], entryLevel, false, false,
        some c!"623edf96-39d1-4e6f-9892-674c7228546b"⟩
    else if t = c!"1fa06bbc-1b77-445d-be74-40c94b653ea6" then
      some ⟨[c!"93a60a56-a3c8-11da-a746-0800200b9a66"], entryLevel, false, false, none⟩
    else none

private theorem sample_real : Real sample where
  conv := by
    intro f id h
    simp only [sample] at h
    split at h
    · injection h with h; rw [← h]; assumption
    · cases h
  elem := by
    intro t e h
    simp only [sample] at h
    split at h
    · rename_i ht; rw [ht]; rfl
    · split at h
      · rename_i ht; rw [ht]; rfl
      · split at h
        · rename_i ht; rw [ht]; rfl
        · cases h
  compliance := by
    intro t e h
    simp only [sample] at h
    split at h
    · injection h with h; rw [← h]; exact .inl rfl
    · split at h
      · injection h with h; rw [← h]; exact .inl rfl
      · split at h
        · injection h with h; rw [← h]; exact .inl rfl
        · cases h

/-- A source, a contact, a product with a heating value, an emission: complete in itself. -/
private def plainOps : List (Str × List Op) :=
  [(c!"p", [.source c!"s", .contact c!"c", .product c!"3fd7efb8-3fbc-4abd-8bc2-3e9bfbc27001" none c!"[mass]"
      [⟨c!"48c987bb-3144-4872-b5c7-b1389c40be25", true, true, c!"2"⟩],
    .elementary c!"1fa06bbc-1b77-445d-be74-40c94b653ea6" none c!"[mass]" []])]

/-- Whether a reference leads to a data set. -/
private def leadsB (fs : List File) (r : Ref) : Bool := fs.any fun f => f.kind = r.kind && f.id = r.id

private theorem leadsB_iff (fs : List File) (r : Ref) : leadsB fs r = true ↔ Leads fs r := by
  simp [leadsB, Leads]

/-- A conversion of the samples goes through, and what can be read off the archive. -/
private theorem goes {l : List (Str × List Op)} (f : St → Bool)
    (h : (match archive sample l St.start with | .ok s => f s | .error _ => false) = true) :
    ∃ s, archive sample l St.start = .ok s ∧ f s = true := by
  split at h
  · rename_i s hs; exact ⟨s, hs, h⟩
  · cases h

private theorem not_asked {l : List (Str × List Op)} {s : St} (hs : archive sample l St.start = .ok s) {p : Str}
    (h : leadsB s.dataSets ⟨.flowProperty, p⟩ = false) : ∀ o ∈ allOps l, ¬ Asks sample.hash p o := by
  intro o ho hA
  have := (leadsB_iff _ _).2 ((property_there_iff sample_real hs p).2 ⟨o, ho, hA⟩)
  rw [h] at this
  cases this

private theorem mass_asked : AsksUnit sample.hash none c!"[mass]" c!"93a60a56-a3c8-11da-a746-0800200b9a66" :=
  ⟨c!"7844486d-bbaf-3c45-9487-7fe3476c5b6f", ⟨c!"93a60a56-a3c8-11da-a746-0800200b9a66",
    c!"93a60a57-a4c8-11da-a746-0800200c9a66", c!"03.00.003", c!"Mass"⟩, by decide +kernel, by decide +kernel, rfl⟩

example : ∃ s, archive sample plainOps St.start = .ok s ∧ SelfContained s.dataSets s.processes ∧
    (∀ p ∈ s.processes, p.2.length = 7) ∧ s.dataSets.length = 17 := by
  obtain ⟨s, hs, hf⟩ := goes (l := plainOps) (fun s => !leadsB s.dataSets ⟨.flowProperty, hydrogen⟩ &&
    ((s.processes.all fun p => p.2.length = 7) && s.dataSets.length = 17)) (by decide +kernel)
  simp only [Bool.and_eq_true, Bool.not_eq_true', List.all_eq_true, decide_eq_true_eq] at hf
  refine ⟨s, hs, self_contained_partial sample_real hs (not_asked hs hf.1) ?_, hf.2.1, hf.2.2⟩
  intro t e d ps ho f hf
  simp only [allOps, plainOps, List.flatMap_cons, List.flatMap_nil, List.append_nil, List.mem_cons, reduceCtorEq,
    Op.elementary.injEq, List.not_mem_nil, or_false, false_or] at ho
  obtain ⟨rfl, rfl, rfl, rfl⟩ := ho
  have : sample.elem c!"1fa06bbc-1b77-445d-be74-40c94b653ea6" =
    some ⟨[c!"93a60a56-a3c8-11da-a746-0800200b9a66"], entryLevel, false, false, none⟩ := by decide +kernel
  rw [this] at hf
  injection hf with hf
  subst hf
  exact ⟨by simpa using mass_asked, rfl⟩

example : ∃ s, archive sample [(c!"p", [.elementary c!"eb5924c9-5e3d-435b-a988-9937a73b44d6" none c!"[mass]" []])]
    St.start = .ok s ∧ ¬ SelfContained s.dataSets s.processes := by
  obtain ⟨s, hs, hf⟩ := goes (l := [(c!"p", [.elementary c!"eb5924c9-5e3d-435b-a988-9937a73b44d6" none c!"[mass]" []])])
    (fun s => !leadsB s.dataSets ⟨.flowProperty, c!"93a60a56-a3c8-14da-a746-0800200c9a66"⟩) (by decide +kernel)
  simp only [Bool.not_eq_true'] at hf
  have he : ∃ e, sample.elem c!"eb5924c9-5e3d-435b-a988-9937a73b44d6" = some e ∧
      c!"93a60a56-a3c8-14da-a746-0800200c9a66" ∈ e.props := ⟨_, rfl, by simp⟩
  obtain ⟨e, he, hp⟩ := he
  exact ⟨s, hs, several_properties sample_real he hp ⟨none, c!"[mass]", [], by simp [allOps]⟩ (not_asked hs hf) hs⟩

example : ∃ s, archive sample [(c!"p", [.elementary c!"b9a77a95-26bb-465c-a558-b08f2cc7716c" none c!"[length] ** 3" []])]
    St.start = .ok s ∧ ¬ SelfContained s.dataSets s.processes := by
  obtain ⟨s, hs, -⟩ := goes (l := [(c!"p", [.elementary c!"b9a77a95-26bb-465c-a558-b08f2cc7716c" none c!"[length] ** 3" []])])
    (fun _ => true) (by decide +kernel)
  have he : ∃ e, sample.elem c!"b9a77a95-26bb-465c-a558-b08f2cc7716c" = some e ∧
      e.owner = some c!"623edf96-39d1-4e6f-9892-674c7228546b" :=
    ⟨⟨[c!"93a60a56-a3c8-22da-a746-0800200c9a66"], entryLevel, false, false,
      some c!"623edf96-39d1-4e6f-9892-674c7228546b"⟩, by decide +kernel, rfl⟩
  obtain ⟨e, he, hp⟩ := he
  exact ⟨s, hs, owner_missing sample_real he hp ⟨none, c!"[length] ** 3", [], by simp [allOps]⟩ (by simp [allOps]) hs⟩

example : ∃ s, archive sample [(c!"p", [.product c!"3fd7efb8-3fbc-4abd-8bc2-3e9bfbc27001" none c!"[mass]"
    [⟨c!"2d23d1bb-e137-4ade-83fc-fbd0421e6cd5", true, true, c!"0.1"⟩]])] St.start = .ok s ∧
    ¬ SelfContained s.dataSets s.processes := by
  obtain ⟨s, hs, -⟩ := goes (l := [(c!"p", [.product c!"3fd7efb8-3fbc-4abd-8bc2-3e9bfbc27001" none c!"[mass]"
    [⟨c!"2d23d1bb-e137-4ade-83fc-fbd0421e6cd5", true, true, c!"0.1"⟩]])]) (fun _ => true) (by decide +kernel)
  exact ⟨s, hs, hydrogen_missing (fid := c!"3fd7efb8-3fbc-4abd-8bc2-3e9bfbc27001") (e := none) (d := c!"[mass]")
    sample_real (List.mem_singleton.2 rfl) rfl rfl (List.mem_singleton.2 rfl) hs⟩

end Verif.Archive
