/-
Sums over lists by key, and the values of elementary exchanges that are summed.
-/
import Verif.Lemmas.RoundTrip

namespace Verif.RoundTrip

open EcsFlows (Exch Flow)
open Spec

theorem sum_split {α : Type} (p : α → Bool) (g : α → ℝ) : ∀ l : List α,
    (l.map g).sum = ((l.filter p).map g).sum + ((l.filter fun a => !p a).map g).sum
  | [] => by simp
  | a :: l => by
    have ih := sum_split p g l
    cases hp : p a <;> simp [hp, ih] <;> ring

theorem sum_filter_ite {α : Type} (p : α → Bool) (g : α → ℝ) : ∀ l : List α,
    ((l.filter p).map g).sum = (l.map fun a => if p a then g a else 0).sum
  | [] => by simp
  | a :: l => by
    have ih := sum_filter_ite p g l
    cases hp : p a <;> simp [hp, ih]

/-- Sums weighted by a key are equal if the sums for each key are. -/
theorem sum_by_key {α κ : Type} [DecidableEq κ] (key : α → κ) (W : κ → ℝ) (g h : α → ℝ) : ∀ (n : Nat) (l : List α), l.length ≤ n →
    (∀ k, ((l.filter fun a => decide (key a = k)).map g).sum = ((l.filter fun a => decide (key a = k)).map h).sum) →
    (l.map fun a => W (key a) * g a).sum = (l.map fun a => W (key a) * h a).sum
  | _, [], _, _ => rfl
  | 0, _ :: _, hn, _ => by simp at hn
  | n + 1, a :: l, hn, hk => by
    have hc : ∀ f : α → ℝ, (((a :: l).filter fun b => decide (key b = key a)).map fun b => W (key b) * f b).sum =
        W (key a) * (((a :: l).filter fun b => decide (key b = key a)).map f).sum := by
      intro f
      rw [← List.sum_map_mul_left]
      congr 1
      refine List.map_congr_left fun b hb => ?_
      rw [show key b = key a by simpa using (List.mem_filter.1 hb).2]
    rw [sum_split (fun b => decide (key b = key a)), sum_split (fun b => decide (key b = key a)) fun b => W (key b) * h b, hc, hc,
      hk (key a)]
    congr 1
    refine sum_by_key key W g h n _ ?_ ?_
    · rw [List.filter_cons_of_neg (by simp)]
      exact le_trans (List.length_filter_le _ _) (by simpa using hn)
    · intro k
      by_cases e : k = key a
      · subst e
        simp [List.filter_filter]
      · have : (List.filter (fun b => decide (key b = k)) (List.filter (fun b => !decide (key b = key a)) (a :: l))) =
            (a :: l).filter fun b => decide (key b = k) := by
          rw [List.filter_filter]
          refine List.filter_congr fun b _ => ?_
          by_cases hb : key b = k
          · simp [hb, e]
          · simp [hb]
        rw [this]
        exact hk k

/-- Zeros for the elements left out. -/
theorem forall₂_fill {α : Type} {R : α → ℝ → Prop} {p : α → Bool} : ∀ {l : List α} {ws : List ℝ},
    List.Forall₂ R (l.filter p) ws → (∀ a ∈ l, p a = false → R a 0) → ∃ vs, List.Forall₂ R l vs ∧ vs.sum = ws.sum
  | [], ws, h, _ => ⟨ws, h, rfl⟩
  | a :: l, ws, h, h0 => by
    cases hp : p a with
    | true =>
      rw [List.filter_cons_of_pos hp] at h
      cases h with
      | cons h1 h2 =>
        obtain ⟨vs, h3, h4⟩ := forall₂_fill h2 fun b hb => h0 b (by simp [hb])
        exact ⟨_ :: vs, .cons h1 h3, by simp [h4]⟩
    | false =>
      rw [List.filter_cons_of_neg (by simp [hp])] at h
      obtain ⟨vs, h3, h4⟩ := forall₂_fill h fun b hb => h0 b (by simp [hb])
      exact ⟨0 :: vs, .cons (h0 a (by simp) hp) h3, by simp [h4]⟩

/-- The value with which an exchange is written; nothing if it was added to another. -/
noncomputable def placedMean (merged : List ((Str × EcsFlows.Dir) × Flow)) (f : Flow) : ℝ :=
  match EcsFlows.place merged f with
  | some g => g.mean.getD 0
  | none => 0

theorem placedMean_key {flows : List Flow} {merged : List ((Str × EcsFlows.Dir) × Flow)}
    (hid : (flows.map Flow.internalId).Nodup)
    (hm : EcsFlows.mergeGroups (EcsFlows.groups flows) = .ok merged ∨ merged = []) (k : Str × EcsFlows.Dir) :
    ((EcsFlows.withKey k flows).map (placedMean merged)).sum = ((EcsFlows.withKey k flows).map fun f => f.amount.m).sum ∧
    ∀ f ∈ EcsFlows.withKey k flows, ∃ f0 ∈ EcsFlows.withKey k flows, ∃ g, EcsFlows.place merged f0 = some g := by
  have plain : aget k merged = none →
      ((EcsFlows.withKey k flows).map (placedMean merged)).sum = ((EcsFlows.withKey k flows).map fun f => f.amount.m).sum ∧
      ∀ f ∈ EcsFlows.withKey k flows, ∃ f0 ∈ EcsFlows.withKey k flows, ∃ g, EcsFlows.place merged f0 = some g := by
    intro h0
    have hp : ∀ f ∈ EcsFlows.withKey k flows, EcsFlows.place merged f = some { f with mean := some f.amount.m } := by
      intro f hf
      unfold EcsFlows.place
      rw [(EcsFlows.mem_withKey.1 hf).2.2, h0]
    refine ⟨?_, fun f hf => ⟨f, hf, _, hp f hf⟩⟩
    congr 1
    refine List.map_congr_left fun f hf => ?_
    unfold placedMean
    rw [hp f hf]
    rfl
  rcases hm with hm | rfl
  · rcases EcsFlows.place_ok hm k with ⟨h0, -⟩ | ⟨f0, f1, l, m, hw, h1, h2⟩
    · exact plain h0
    · obtain ⟨sb, hmean, -⟩ := EcsFlows.mergeRest_ok h2
      have hnd : ((EcsFlows.withKey k flows).map Flow.internalId).Nodup := hid.sublist (List.filter_sublist.map _)
      have hk : ∀ g ∈ f0 :: f1 :: l, g.isElementary = true ∧ g.key = k := by
        intro g hg
        rw [← hw] at hg
        exact (EcsFlows.mem_withKey.1 hg).2
      have hp0 : EcsFlows.place merged f0 = some m := by
        unfold EcsFlows.place
        rw [(hk f0 (by simp)).2, h1]
        simp [(hk f0 (by simp)).1, sb.id]
      rw [hw] at hnd ⊢
      refine ⟨?_, fun f _ => ⟨f0, by simp, m, hp0⟩⟩
      rw [List.map_cons, List.sum_cons]
      have h0 : ((f1 :: l).map (placedMean merged)).sum = 0 := by
        refine List.sum_eq_zero fun v hv => ?_
        obtain ⟨g, hg, rfl⟩ := List.mem_map.1 hv
        have hne : g.internalId ≠ m.internalId := by
          rw [sb.id]
          intro e
          rw [List.map_cons, List.nodup_cons] at hnd
          exact hnd.1 (e ▸ List.mem_map.2 ⟨g, hg, rfl⟩)
        unfold placedMean EcsFlows.place
        rw [(hk g (List.mem_cons_of_mem _ hg)).2, h1]
        simp [(hk g (List.mem_cons_of_mem _ hg)).1, hne]
      rw [h0, add_zero]
      unfold placedMean
      rw [hp0]
      simp [hmean]
  · exact plain rfl

/-- Summing equal exchanges keeps every sum weighted by flow and direction. -/
theorem placedMean_sum {flows : List Flow} {merged : List ((Str × EcsFlows.Dir) × Flow)}
    (hid : (flows.map Flow.internalId).Nodup)
    (hm : EcsFlows.mergeGroups (EcsFlows.groups flows) = .ok merged ∨ merged = []) (W : Str × EcsFlows.Dir → ℝ) :
    ((flows.filter (·.isElementary)).map fun f => W f.key * placedMean merged f).sum =
      ((flows.filter (·.isElementary)).map fun f => W f.key * f.amount.m).sum := by
  refine sum_by_key Flow.key W _ _ _ _ le_rfl fun k => ?_
  have : ((flows.filter (·.isElementary)).filter fun f => decide (f.key = k)) = EcsFlows.withKey k flows := by
    rw [List.filter_filter]
    unfold EcsFlows.withKey
    exact List.filter_congr fun f _ => by rw [Bool.and_comm]
  rw [this]
  exact (placedMean_key hid hm k).1

end Verif.RoundTrip
