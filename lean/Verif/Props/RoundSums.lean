/-
The totals of the elementary flows of an EcoSpold2 data set after a conversion to ILCD and back, with and without summing.
-/
import Verif.Lemmas.RoundSums
import Verif.Props.RoundTrip

namespace Verif.RoundTrip

open EcsFlows (Exch Flow)
open Spec
open FlowFiles (otherId)

section

variable {P D : Type} [DecidableEq P] [DecidableEq D] {env : EcsFlows.Env P} {fenv : FlowFiles.Env} {base : IlcdFlows.Env ℝ D}
  {E : Uuid.BlockFn} {unitProp : P → Str} {package : Str → IlcdFlows.FlowFile} {shown : ℝ → Str} {xs : List Exch} {ex : Extras}
  {b : Bool} {d : Doc P} {s2 : IlcdFlows.St ℝ}

/-- The flows that are written as elementary are those of the elementary exchanges, and their direction is that of the group. -/
theorem flow_kind (S : Setting env fenv E unitProp package xs) {s : EcsFlows.St P}
    (hs : EcsFlows.run env xs (EcsFlows.fresh []) = .ok s) {f : Flow} (hf : f ∈ s.flows) :
    f.isElementary = f.src.isElem ∧ (f.src.isElem = true → dirText f.dir = toward f.src) := by
  have k := flows_ok hs f hf
  cases he : f.src.isElem with
  | false =>
    refine ⟨?_, by simp⟩
    obtain ⟨g, hg, ht⟩ := k.ftype he
    rw [flowType_valid (S.groups _ (src_mem hs hf) he) hg] at ht
    unfold EcsFlows.Flow.isElementary
    rw [ht]
    split <;> rfl
  | true =>
    obtain ⟨g, hg, ht⟩ := k.eltype he
    rcases S.elems _ (src_mem hs hf) he with ⟨h, -⟩ | ⟨h, h'⟩
    · simp [EcsFlows.direction, h, EcsFlows.given] at hg
      obtain ⟨h1, rfl⟩ := hg
      rw [← h1] at ht ⊢
      refine ⟨?_, fun _ => by simp [toward, h, dirText]⟩
      unfold EcsFlows.Flow.isElementary
      rw [ht]; rfl
    · simp [EcsFlows.direction, h, h', EcsFlows.given] at hg
      obtain ⟨h1, rfl⟩ := hg
      rw [← h1] at ht ⊢
      refine ⟨?_, fun _ => by simp [toward, h, dirText]⟩
      unfold EcsFlows.Flow.isElementary
      rw [ht]; rfl

private theorem factor_unique {r : IlcdFlows.Row} {k k' : ℝ} (h : IlcdFlows.Spec.Factor base r k) (h' : IlcdFlows.Spec.Factor base r k') :
    k = k' := by
  rcases h with ⟨h1, rfl⟩ | ⟨h1, h2, h3⟩ <;> rcases h' with ⟨g1, rfl⟩ | ⟨g1, g2, g3⟩
  · rfl
  · exact absurd h1 (by simp [g1, g2])
  · exact absurd g1 (by simp [h1, h2])
  · exact Except.ok.inj (h3.symm.trans g3)

private theorem mapped_unique {t : Str} {r r' : IlcdFlows.Row} (h : IlcdFlows.Spec.Mapped base t r)
    (h' : IlcdFlows.Spec.Mapped base t r') : r = r' := Option.some.inj (h.1.symm.trans h'.1)

open Classical in
/-- What an amount of a flow of ILCD in one direction adds to the total. -/
private noncomputable def weight (base : IlcdFlows.Env ℝ D) (scale : Str → ℝ) (t dir : Str) (k : Str × EcsFlows.Dir) : ℝ :=
  if h : dirText k.2 = dir ∧ ∃ v, ∃ r' k', IlcdFlows.Spec.Mapped base k.1 r' ∧ IlcdFlows.Spec.Factor base r' k' ∧ r'.target = t ∧
    v = k' * scale r'.unit then h.2.choose else 0

private theorem weight_eq {scale : Str → ℝ} {t dir : Str} {k : Str × EcsFlows.Dir} {r' : IlcdFlows.Row} {k' : ℝ}
    (h1 : IlcdFlows.Spec.Mapped base k.1 r') (h2 : IlcdFlows.Spec.Factor base r' k') :
    weight base scale t dir k = if dirText k.2 = dir ∧ r'.target = t then k' * scale r'.unit else 0 := by
  unfold weight
  split
  · rename_i h
    obtain ⟨r2, k2, g1, g2, g3, g4⟩ := h.2.choose_spec
    obtain rfl := mapped_unique h1 g1
    obtain rfl := factor_unique h2 g2
    rw [if_pos ⟨h.1, g3⟩]
    exact g4
  · rename_i h
    rw [if_neg]
    rintro ⟨g1, g2⟩
    exact h ⟨g1, _, r', k', h1, h2, g2, rfl⟩

private theorem weight_zero {scale : Str → ℝ} {t dir : Str} {k : Str × EcsFlows.Dir}
    (h : ¬ (dirText k.2 = dir ∧ ∃ r', IlcdFlows.Spec.Mapped base k.1 r' ∧ r'.target = t)) : weight base scale t dir k = 0 := by
  unfold weight
  rw [dif_neg]
  rintro ⟨g1, -, r', -, g2, -, g3, -⟩
  exact h ⟨g1, r', g2, g3⟩

private theorem forall₂_mem {α β : Type} {R : α → β → Prop} {l : List α} {m : List β} (h : List.Forall₂ R l m) {a : α} (ha : a ∈ l) :
    ∃ b ∈ m, R a b := by
  induction h with
  | nil => cases ha
  | cons h1 _ ih =>
    rcases List.mem_cons.1 ha with rfl | ha
    · exact ⟨_, by simp, h1⟩
    · obtain ⟨b, hb, h⟩ := ih ha
      exact ⟨b, by simp [hb], h⟩

private theorem forall₂_sum {α β : Type} {R : α → β → Prop} {l : List α} {m : List β} {g : α → ℝ} {h : β → ℝ}
    (hF : List.Forall₂ R l m) (hR : ∀ a ∈ l, ∀ b ∈ m, R a b → h b = g a) : (m.map h).sum = (l.map g).sum := by
  induction hF with
  | nil => rfl
  | cons h1 _ ih =>
    rw [List.map_cons, List.map_cons, List.sum_cons, List.sum_cons, hR _ (by simp) _ (by simp) h1,
      ih fun a ha b hb => hR a (by simp [ha]) b (by simp [hb])]

/-- C166: whether or not equal flows are summed on the way there, the total of every flow of the table back in every direction
is that of the exchanges of the source, multiplied by the factors of both tables and that of the unit. -/
theorem elementary_total (S : Setting env fenv E unitProp package xs) (h1 : there env fenv b xs = .ok d)
    (hl : Legible base shown d) (h2 : back base E unitProp package shown ex d = .ok s2) (scale : Str → ℝ) (t dir : Str) :
    ∃ vs, List.Forall₂ (Adds env base scale t dir) xs vs ∧ IlcdFlows.Spec.total scale s2.flows t dir = vs.sum := by
  classical
  obtain ⟨s, st, merged, hs, hfl, hm, hm', hr, hrefs, hd⟩ := there_ok h1
  have hmm : EcsFlows.mergeGroups (EcsFlows.groups s.flows) = .ok merged ∨ merged = [] := by
    cases b with
    | true => exact .inl (hm rfl)
    | false => exact .inr (hm' rfl)
  have hid : (s.flows.map Flow.internalId).Nodup := by
    rw [(EcsFlows.exchanges_numbered hs).1]; exact List.nodup_range'
  have hall := files_all hs
  have hi := IlcdFlows.convertAll_inv h2
  have hrowOf : ∀ f ∈ s.flows, f.src.isElem = true → ∃ row, EcsFlows.rowOf env f.src = some row ∧ f.target = row.target := by
    intro f hf he
    rcases (flows_ok hs f hf).kind with ⟨h, -⟩ | ⟨-, r, o, h, -, h'⟩
    · rw [he] at h; cases h
    · exact ⟨r, h, h'⟩
  have hread : ∀ f ∈ s.flows, ∀ g, EcsFlows.place merged f = some g → ∃ r, readOf shown ex d merged f = some (exchOf shown ex g r) := by
    intro f hf g hg
    obtain ⟨r, hlk, -⟩ := linked S hs hr hd hf
    refine ⟨r, ?_⟩
    unfold readOf
    rw [hg, Option.bind_some, place_id hg, hlk]
    rfl
  have hrow : ∀ f ∈ s.flows, f.src.isElem = true → ∀ e, readOf shown ex d merged f = some e →
      (IlcdFlows.Spec.ToWrite (reader base E unitProp package d) e ↔ ∃ r', IlcdFlows.Spec.Mapped base f.target r') := by
    intro f hf he e hfe
    obtain ⟨row0, q1, q2⟩ := hrowOf f hf he
    rcases file_read (base := base) (package := package) S (src_mem hs hf) hall (read_back S hs hr hd hf hfe) with
      ⟨-, row, l1, l2, l3⟩ | ⟨h, -⟩
    · obtain rfl := Option.some.inj (q1.symm.trans l1)
      rw [q2]
      constructor
      · rintro (⟨ff, r', -, hr'⟩ | ⟨ff, i, n, hp, -⟩)
        · rw [l2] at hr'; exact ⟨r', hr'⟩
        · have := Option.some.inj (hp.1.symm.trans l3.1)
          subst this
          exact absurd l3.2 hp.2
      · rintro ⟨r', g2⟩
        exact .inl ⟨_, r', l3, by rw [l2]; exact g2⟩
    · rw [he] at h; cases h
  let q : Flow → Bool := fun f => f.src.isElem && (EcsFlows.place merged f).isSome &&
    decide (∃ r', IlcdFlows.Spec.Mapped base f.target r')
  have hF := pairs (base := base) (package := package) S hs hfl hr hd h2 true q (by simp +contextual [q])
    (by
      intro f hf h e hfe he
      rw [hrow f hf he e hfe]
      have : (EcsFlows.place merged f).isSome = true := by
        obtain ⟨g, hg, -⟩ := Option.bind_eq_some_iff.1 hfe
        rw [hg]; rfl
      simpa [q, he, this] using h)
    (by
      intro f hf h
      simp only [q, Bool.and_eq_true, decide_eq_true_eq] at h
      obtain ⟨g, hg⟩ := Option.isSome_iff_exists.1 h.1.2
      obtain ⟨r, hfe⟩ := hread f hf g hg
      exact ⟨_, hfe, (hrow f hf h.1.1 _ hfe).2 h.2⟩)
  have hpair : ∀ f fl, readOf shown ex d merged f = some fl.src → f ∈ s.flows → fl ∈ s2.flows → f.src.isElem = true → fl.elem = true →
      ∃ r' k', IlcdFlows.Spec.Mapped base f.target r' ∧ IlcdFlows.Spec.Factor base r' k' ∧ fl.field.target = r'.target ∧
        fl.unit = r'.unit ∧ fl.field.amount = placedMean merged f * k' ∧ fl.src.dir = dirText f.dir := by
    intro f fl hfe hf hfl2 he hel
    obtain ⟨row0, q1, q2⟩ := hrowOf f hf he
    obtain ⟨g, hg, -⟩ := Option.bind_eq_some_iff.1 hfe
    obtain ⟨r, hr'⟩ := hread f hf g hg
    have hsrc : fl.src = exchOf shown ex g r := Option.some.inj (hfe.symm.trans hr')
    have hc := hi.flows fl hfl2
    rcases hc.kind with ⟨ff, r', a', k', -, -, -, -, -, k1, k2, k3, k4, -, k5, k10, k6, k7, k8, k9, -⟩ | ⟨-, -, -, -, -, -, -, h, -⟩
    swap
    · rw [hel] at h; cases h
    rcases file_read (base := base) (package := package) S (src_mem hs hf) hall (read_back S hs hr hd hf hfe) with
      ⟨-, row, l1, l2, -⟩ | ⟨h, -⟩
    swap
    · rw [he] at h; cases h
    obtain rfl := Option.some.inj (q1.symm.trans l1)
    have hgm : ∃ v, g.mean = some v := by
      have hek : f.isElementary = true := by rw [(flow_kind S hs hf).1, he]
      rcases hmm with hm | rfl
      · unfold EcsFlows.place at hg
        split at hg
        · obtain rfl := Option.some.inj hg; exact ⟨_, rfl⟩
        · rename_i m hmk
          rw [if_pos hek] at hg
          split at hg
          · obtain rfl := Option.some.inj hg
            rcases EcsFlows.place_ok hm f.key with ⟨h0, -⟩ | ⟨f0, f1, l, m', hw, w1, w2⟩
            · rw [h0] at hmk; cases hmk
            · obtain rfl := Option.some.inj (hmk.symm.trans w1)
              exact ⟨_, (EcsFlows.mergeRest_ok w2).2.1⟩
          · cases hg
      · obtain rfl := Option.some.inj hg; exact ⟨_, rfl⟩
    obtain ⟨v, hv⟩ := hgm
    have ha' : a' = v := by
      obtain ⟨w, ht, hfl'⟩ := k3
      rw [hsrc] at ht
      have : w = shown v := by
        rcases ht with ht | ⟨ht, -⟩
        · simp [exchOf, hv] at ht; exact ht.symm
        · simp [exchOf, hv] at ht
      rw [this] at hfl'
      exact Except.ok.inj (hfl'.symm.trans (hl _ (by rw [hfl]; exact List.mem_filterMap.2 ⟨f, hf, hg⟩) _ hv))
    refine ⟨r', k', by rw [q2, ← l2]; exact k2, k4, k6, k10, ?_, ?_⟩
    · rw [hc.amount, k9, ha']
      unfold placedMean
      rw [hg]
      simp [hv]
    · rw [hsrc]
      show dirText g.dir = _
      rcases hmm with hm | rfl
      · exact congrArg dirText (Prod.mk.inj (EcsFlows.placed hm hg).1).2
      · obtain rfl := Option.some.inj hg; rfl
  set W := weight base scale t dir with hW
  -- the total, by the exchanges of ILCD
  have e1 : IlcdFlows.Spec.total scale s2.flows t dir = ((s.flows.filter q).map fun f => W f.key * placedMean merged f).sum := by
    have hb : (s2.flows.filter fun f => f.elem && decide (f.field.target = t ∧ f.src.dir = dir)) =
        (s2.flows.filter fun fl => fl.elem == true).filter fun f => decide (f.field.target = t ∧ f.src.dir = dir) := by
      rw [List.filter_filter]
      refine List.filter_congr fun fl _ => ?_
      cases fl.elem <;> simp
    unfold IlcdFlows.Spec.total
    rw [hb, sum_filter_ite]
    refine forall₂_sum hF fun f hfq fl hflq ⟨hfe, hf, hfl2⟩ => ?_
    have hq := (List.mem_filter.1 hfq).2
    simp only [q, Bool.and_eq_true, decide_eq_true_eq] at hq
    obtain ⟨r', k', m1, m2, m3, m4, m5, m6⟩ := hpair f fl hfe hf hfl2 hq.1.1 (by simpa using (List.mem_filter.1 hflq).2)
    rw [hW, weight_eq (k := f.key) m1 m2, m3, m4, m5, m6]
    by_cases hc : r'.target = t ∧ dirText f.dir = dir
    · rw [if_pos (by simpa using hc), if_pos ⟨hc.2, hc.1⟩]; ring
    · rw [if_neg (by simpa using hc), if_neg (fun h => hc ⟨h.2, h.1⟩), zero_mul]
  have e2 : ((s.flows.filter q).map fun f => W f.key * placedMean merged f).sum =
      ((s.flows.filter (·.isElementary)).map fun f => W f.key * placedMean merged f).sum := by
    rw [sum_filter_ite, sum_filter_ite]
    congr 1
    refine List.map_congr_left fun f hf => ?_
    rw [(flow_kind S hs hf).1]
    cases hq : q f with
    | true =>
      have : f.src.isElem = true := by
        simp only [q, Bool.and_eq_true] at hq
        exact hq.1.1
      simp [this]
    | false =>
      cases he : f.src.isElem with
      | false => simp
      | true =>
        simp only [q, he, Bool.true_and, Bool.and_eq_false_iff, decide_eq_false_iff_not] at hq
        simp only [Bool.false_eq_true, if_false, if_true]
        rcases hq with hq | hq
        · have : placedMean merged f = 0 := by
            unfold placedMean
            cases hp : EcsFlows.place merged f with
            | none => rfl
            | some g => rw [hp] at hq; cases hq
          rw [this, mul_zero]
        · rw [hW, weight_zero, zero_mul]
          rintro ⟨-, r', h, -⟩
          exact hq ⟨r', h⟩
  rw [e1, e2, placedMean_sum hid hmm, sum_filter_ite]
  -- the contributions of the exchanges
  have hfac : ∀ f ∈ s.flows, f.src.isElem = true → ∀ r', IlcdFlows.Spec.Mapped base f.target r' →
      ∃ k', IlcdFlows.Spec.Factor base r' k' := by
    intro f hf he r' hr'
    have hk : f ∈ EcsFlows.withKey f.key s.flows := EcsFlows.mem_withKey.2 ⟨hf, by rw [(flow_kind S hs hf).1, he], rfl⟩
    obtain ⟨f0, hf0, g, hg⟩ := (placedMean_key hid hmm f.key).2 f hk
    obtain ⟨n1, n2, n3⟩ := EcsFlows.mem_withKey.1 hf0
    have n4 : f0.src.isElem = true := by rw [← (flow_kind S hs n1).1, n2]
    have n5 : f0.target = f.target := (Prod.mk.inj n3).1
    obtain ⟨fl, hfl2, hfe, -, hfl3⟩ := forall₂_mem hF (a := f0) (List.mem_filter.2 ⟨n1, by
      simp only [q, n4, hg, Bool.and_eq_true, decide_eq_true_eq]
      exact ⟨⟨trivial, rfl⟩, r', by rw [n5]; exact hr'⟩⟩)
    obtain ⟨r2, k', m1, m2, -⟩ := hpair f0 fl hfe n1 hfl3 n4 (by simpa using (List.mem_filter.1 hfl2).2)
    rw [n5] at m1
    obtain rfl := mapped_unique hr' m1
    exact ⟨k', m2⟩
  have hx : xs.filter (fun x => decide (EcsFlows.Spec.Convertible env.mapping x)) = s.flows.map Flow.src := by
    rw [(EcsFlows.exchanges_state hs).1]
  have hv : List.Forall₂ (Adds env base scale t dir) (xs.filter fun x => decide (EcsFlows.Spec.Convertible env.mapping x))
      (s.flows.map fun f => if f.isElementary = true then W f.key * f.amount.m else 0) := by
    rw [hx, List.forall₂_map_left_iff, List.forall₂_map_right_iff, List.forall₂_same]
    intro f hf
    rw [(flow_kind S hs hf).1]
    cases he : f.src.isElem with
    | false => exact .inr ⟨fun h => by simp [he] at h, by simp⟩
    | true =>
      have hdir := (flow_kind S hs hf).2 he
      obtain ⟨row, q1, q2⟩ := hrowOf f hf he
      have hrow := EcsFlows.rowOf_some.1 q1
      rw [if_pos rfl]
      by_cases hc : toward f.src = dir ∧ ∃ r', IlcdFlows.Spec.Mapped base f.target r' ∧ r'.target = t
      · obtain ⟨c1, r', c2, c3⟩ := hc
        obtain ⟨k', hk'⟩ := hfac f hf he r' c2
        left
        rcases (flows_ok hs f hf).kind with ⟨h, -⟩ | ⟨-, row', o, hrow', ho, -⟩
        · rw [he] at h; cases h
        rw [q1] at hrow'
        obtain rfl := Option.some.inj hrow'
        unfold EcsFlows.elemAmount at ho
        split at ho
        · cases ho
        · rename_i k hk
          split at ho
          · cases ho
          · rename_i a ha
            split at ho
            · cases ho
            · rename_i c hcu
              have e := (Prod.mk.inj (Except.ok.inj ho)).2
              have hK : Factor env row k := by
                unfold EcsFlows.rowFactor at hk
                split at hk
                · rename_i hn; exact .inl ⟨hn, (Except.ok.inj hk).symm⟩
                · rename_i hn; rw [not_or] at hn; exact .inr ⟨hn.1, hn.2, hk⟩
              refine ⟨row, r', a, k, c, k', he, c1, ⟨hrow, by rw [← q2]; exact c2⟩, c3, ha, hK, hcu, hk', ?_⟩
              rw [hW, weight_eq (k := f.key) c2 hk', if_pos ⟨by rw [← c1]; exact hdir, c3⟩, ← e]
              show _ * (a * k * c) = _
              ring
      · right
        refine ⟨?_, ?_⟩
        · rintro ⟨-, c1, r, r', ⟨c2, c3⟩, c4⟩
          obtain rfl : r = row := Option.some.inj (c2.1.symm.trans hrow.1)
          exact hc ⟨c1, r', by rw [q2]; exact c3, c4⟩
        · rw [hW, weight_zero, zero_mul]
          rintro ⟨c1, r', c2, c3⟩
          exact hc ⟨by rw [← hdir]; exact c1, r', c2, c3⟩
  obtain ⟨vs, v1, v2⟩ := forall₂_fill (l := xs) hv (by
    intro x _ hx
    rw [decide_eq_false_iff_not] at hx
    refine .inr ⟨?_, rfl⟩
    rintro ⟨-, -, r, r', ⟨h, -⟩, -⟩
    exact hx (.inr ⟨r, h⟩))
  exact ⟨vs, v1, v2.symm⟩

/-- C166, when equal flows are also summed at the end of the way back: the totals are the same, and every flow is there once in
each direction. -/
theorem elementary_total_merged (S : Setting env fenv E unitProp package xs) (h1 : there env fenv b xs = .ok d)
    (hl : Legible base shown d) (h2 : back base E unitProp package shown ex d = .ok s2) {scale : Str → ℝ}
    (hs : ∀ u dm c, base.unit u = .ok (dm, c) → scale u = c ∧ c ≠ 0) {em : List (IlcdFlows.Flow ℝ)}
    (hem : em.Perm (s2.flows.filter (·.elem))) {s3 : IlcdFlows.St ℝ}
    (h3 : IlcdFlows.merge (reader base E unitProp package d) s2 em = .ok s3) (t dir : Str) :
    (∃ vs, List.Forall₂ (Adds env base scale t dir) xs vs ∧ IlcdFlows.Spec.total scale s3.flows t dir = vs.sum) ∧
    ((∃ f ∈ s2.flows, f.elem = true ∧ f.field.target = t ∧ f.src.dir = dir) →
      ∃ g, (s3.flows.filter fun f => f.elem && decide (f.field.target = t ∧ f.src.dir = dir)) = [g]) := by
  obtain ⟨a1, a2, -⟩ := IlcdFlows.merge_total (env := reader base E unitProp package d) hs h2 hem h3
  exact ⟨by rw [a1]; exact elementary_total S h1 hl h2 scale t dir, a2 t dir⟩

end

/-- `elementary_total`: one kilogram of carbon dioxide in the example, and one comes back. -/
example : ∃ s, back exBase E0 (fun _ => massId) exPackage (fun _ => c!"1") exExtras exDoc = .ok s ∧
    IlcdFlows.Spec.total (fun _ => 1) s.flows c!"co2" c!"Output" = 1 := by
  obtain ⟨s, h, -⟩ := ex_back
  refine ⟨s, h, ?_⟩
  obtain ⟨vs, h1, h2⟩ := elementary_total ex_setting ex_there ex_legible h (fun _ => 1) c!"co2" c!"Output"
  rw [h2]
  obtain ⟨v0, l0, g0, f1, rfl⟩ := List.forall₂_cons_left_iff.1 h1
  obtain ⟨v1, l1, g1, f2, rfl⟩ := List.forall₂_cons_left_iff.1 f1
  obtain ⟨v2, l2, g2, f3, rfl⟩ := List.forall₂_cons_left_iff.1 f2
  obtain rfl := List.forall₂_nil_left_iff.1 f3
  have e0 : v0 = 0 := by
    rcases g0 with ⟨_, _, _, _, _, _, h, -⟩ | ⟨-, h⟩
    · cases h
    · exact h
  have e1 : v1 = 0 := by
    rcases g1 with ⟨_, _, _, _, _, _, h, -⟩ | ⟨-, h⟩
    · cases h
    · exact h
  have e2 : v2 = 1 := by
    rcases g2 with ⟨r, r', a, k, c, k', -, -, ⟨hr, hr'⟩, -, ha, hk, hc, hk', h⟩ | ⟨h, -⟩
    · obtain rfl : (⟨c!"MATCH", otherId, c!"carbon dioxide", c!"kg", c!"n/a"⟩ : EcsFlows.Row) = r := Option.some.inj hr.1
      obtain rfl : (⟨c!"MATCH", c!"co2", c!"Carbon dioxide", c!"air/unspecified", c!"kg", c!"n/a"⟩ : IlcdFlows.Row) = r' :=
        Option.some.inj hr'.1
      obtain rfl : (1 : ℝ) = a := Except.ok.inj ha
      obtain rfl : (1 : ℝ) = c := Except.ok.inj hc
      have hk : k = 1 := by
        rcases hk with ⟨-, h⟩ | ⟨-, h, -⟩
        · exact h
        · exact absurd rfl h
      have hk' : k' = 1 := by
        rcases hk' with ⟨-, h⟩ | ⟨-, h, -⟩
        · exact h
        · exact absurd rfl h
      rw [h, hk, hk']; norm_num
    · refine absurd ⟨rfl, rfl, ⟨c!"MATCH", otherId, c!"carbon dioxide", c!"kg", c!"n/a"⟩,
        ⟨c!"MATCH", c!"co2", c!"Carbon dioxide", c!"air/unspecified", c!"kg", c!"n/a"⟩, ⟨⟨rfl, ?_⟩, rfl, ?_⟩, rfl⟩ h
      · simp
      · decide +kernel
  simp [e0, e1, e2]

end Verif.RoundTrip
