/-
An ILCD data set converted to EcoSpold2 and back: what the theorems apply to, and what is lost.
-/
import Verif.Props.RoundIlcdUnits

namespace Verif.RoundIlcd

open IlcdFlows.Spec (IsProduct IsElementary HasUnit Value ToWrite)
open RoundTrip (Doc there E0 massId exEnv exFenv)
open FlowFiles (someId otherId)
open Spec

/-- The treatment of a waste, which is an input; carbon dioxide, under two identifiers. -/
noncomputable def waste : IlcdFlows.Exch ℝ := ⟨someId, [], [], [c!"waste"], some c!"1", some c!"1", [], none, c!"Input", c!"0", none⟩
noncomputable def gasA : IlcdFlows.Exch ℝ := ⟨c!"a", [], [], [c!"co2"], some c!"1", some c!"1", [], none, c!"Output", c!"1", none⟩
noncomputable def gasB : IlcdFlows.Exch ℝ := ⟨c!"b", [], [], [c!"co2"], some c!"1", some c!"1", [], none, c!"Output", c!"2", none⟩

noncomputable def exSource : List (IlcdFlows.Exch ℝ) := [waste, gasA, gasB]

def wasteFile : IlcdFlows.FlowFile := ⟨some c!"Waste flow", [c!"waste"], some massId⟩
def gasFile : IlcdFlows.FlowFile := ⟨some c!"Elementary flow", [c!"co2"], none⟩
def rowIn (u : Str) : IlcdFlows.Row := ⟨c!"MATCH", c!"co2", c!"Carbon dioxide", c!"air/unspecified", u, c!"n/a"⟩

/-- The second gas is mapped in the unit `u`. -/
noncomputable def exEnv1 (u : Str) : IlcdFlows.Env ℝ Unit where
  flt := fun _ => .ok 1
  hash := id
  convId := Uuid.ilcdToEcs E0
  process := []
  refs := [c!"0"]
  row := fun i => some (rowIn (if i = c!"b" then u else c!"kg"))
  subcompartment := fun _ => some []
  file := fun i _ _ => some (if i = someId then wasteFile else gasFile)
  unit := fun u => .ok ((), if u = c!"g" then 0.001 else 1)
  units := Units.ilcdToEcsUnit

/-- Two numbers are read: `x` is the sum of one and a thousandth. -/
noncomputable def exEnv2 : EcsFlows.Env Unit := { exEnv with flt := fun t => .ok (if t = c!"x" then 1.001 else 1) }

open Classical in
noncomputable def exShown : ℝ → Str := fun v => if v = 1 then c!"1" else c!"x"

def exExtras : Extras := ⟨fun _ => [], fun _ => []⟩

noncomputable def exScale (u : Str) : ℝ := if u = c!"g" then 0.001 else 1

theorem ex_sizes (u : Str) : Sizes (exEnv1 u) exScale := by
  intro v d c h
  have h : ((), exScale v) = (d, c) := Except.ok.inj h
  obtain ⟨-, rfl⟩ := Prod.mk.inj h
  refine ⟨rfl, ?_⟩
  unfold exScale
  split <;> norm_num

private theorem conv_some : Uuid.ilcdToEcs E0 someId = .ok someId := by decide +kernel
private theorem conv_back : Uuid.ecsToIlcd E0 someId = .ok someId := by decide +kernel

private theorem product_waste {u : Str} {x : IlcdFlows.Exch ℝ} (hx : x ∈ exSource) {f : IlcdFlows.FlowFile} (h : IsProduct (exEnv1 u) x f) :
    x = waste := by
  simp only [exSource, List.mem_cons, List.not_mem_nil, or_false] at hx
  rcases hx with rfl | rfl | rfl
  · rfl
  · exact absurd (show f.typ = some c!"Elementary flow" by rw [← Option.some.inj h.1]; rfl) h.2
  · exact absurd (show f.typ = some c!"Elementary flow" by rw [← Option.some.inj h.1]; rfl) h.2

private theorem row_target {u : Str} {i : Str} {r : IlcdFlows.Row} (h : IlcdFlows.Spec.Mapped (exEnv1 u) i r) :
    r = rowIn (if i = c!"b" then u else c!"kg") := (Option.some.inj h.1).symm

theorem ex_setting (u : Str) : Setting (exEnv1 u) exEnv2 exFenv E0 exSource where
  conv := rfl
  conv2 := rfl
  fconv := rfl
  ids := by
    intro x hx f h
    obtain rfl := product_waste hx h
    exact RoundTrip.ex_setting.ids RoundTrip.steel (by simp [RoundTrip.exchs]) rfl
  targets := by
    intro y hy g r r' hg hr hr'
    rw [row_target hr] at hr'
    exact (RoundTrip.ex_setting.targets RoundTrip.dioxide (by simp [RoundTrip.exchs]) rfl r' hr').1
  apart := by
    intro x hx y hy f g r r' hp hg hr hr'
    obtain rfl := product_waste hx hp
    rw [row_target hr] at hr' ⊢
    have : r' = ⟨c!"MATCH", otherId, c!"carbon dioxide", c!"kg", c!"n/a"⟩ := (Option.some.inj hr'.1).symm
    subst this
    refine ⟨by decide, ?_⟩
    show Uuid.ilcdToEcs E0 someId ≠ .ok c!"co2"
    rw [conv_some]
    decide

/-! ### The data set in the middle -/

noncomputable def midWaste : IlcdFlows.Flow ℝ :=
  ⟨waste, false, c!"Waste flow", 0, 1, c!"kg", none, c!"waste", none,
    ⟨c!"waste", someId, c!"waste", c!"kg", c!"487df68b-4994-4027-8fdc-a4dc298257b7", 1, none, some 0, [], none, none, none⟩⟩

noncomputable def midGas (x : IlcdFlows.Exch ℝ) (k : Nat) (id u i : Str) (v : ℝ) : IlcdFlows.Flow ℝ :=
  ⟨x, true, c!"Elementary flow", k, v, u, none, c!"co2", none,
    ⟨id, c!"co2", c!"Carbon dioxide", u, i, v, none, some 4, [], none, none, none⟩⟩

/-- The unit found for every dimension. -/
def exUnitId : Str := c!"329b50e2-c594-39e9-953c-04c61d81d61e"

private theorem step_waste (u : Str) : IlcdFlows.convertOne (exEnv1 u) .empty waste = .ok
    (({ IlcdFlows.St.empty with ids := [c!"waste"] } : IlcdFlows.St ℝ).put midWaste) := by
  have hc : (exEnv1 u).convId waste.fid = .ok someId := conv_some
  have hu : aget massId (exEnv1 u).units = some (c!"487df68b-4994-4027-8fdc-a4dc298257b7", c!"kg") := by
    show aget massId Units.ilcdToEcsUnit = _
    decide +kernel
  have ha : IlcdFlows.amountOf (exEnv1 u) waste = .ok 1 := rfl
  have hn : (exEnv1 u).unit c!"kg" = .ok ((), if c!"kg" = c!"g" then 0.001 else 1) := rfl
  have hk : IlcdFlows.underscore c!"kg" = c!"kg" := by decide
  have hf : (exEnv1 u).file waste.fid waste.version waste.uri = some wasteFile := rfl
  have ht : ¬ (c!"Waste flow" = c!"Elementary flow") := by decide
  have hb : IlcdFlows.baseName wasteFile = .ok c!"waste" := rfl
  have hr : wasteFile.refProperty = some massId := rfl
  have hy : wasteFile.typ = some c!"Waste flow" := rfl
  have hv : waste.var = none := rfl
  have hun : waste.unc = none := rfl
  have hfin : ∀ fl : IlcdFlows.Flow ℝ, fl = ⟨waste, false, c!"Waste flow", 0, 1, c!"kg", none, c!"waste", none,
      ⟨[], someId, c!"waste", c!"kg", c!"487df68b-4994-4027-8fdc-a4dc298257b7", 1, none, none, [], none, none, none⟩⟩ →
      IlcdFlows.finish (exEnv1 u) .empty fl = .ok ({ IlcdFlows.St.empty with ids := [c!"waste"] }, midWaste) := by
    rintro _ rfl
    rfl
  unfold IlcdFlows.convertOne
  rw [if_neg (by simp [waste]), ha]
  simp only [bind, Except.bind, hf, hy, if_neg ht, IlcdFlows.intermediate, hc, hb, hr, Option.bind_some, hu, hn, hk, hv, hun, Option.map_none]
  erw [hfin _ rfl]

private theorem step_gas (u : Str) (x : IlcdFlows.Exch ℝ) (hx : x = gasA ∨ x = gasB) (s : IlcdFlows.St ℝ) (id : Str)
    (hid : IlcdFlows.freshId (fun t => t) s.ids c!"co2" = some id) :
    IlcdFlows.convertOne (exEnv1 u) s x = .ok (({ s with ids := s.ids ++ [id] } : IlcdFlows.St ℝ).put
      (midGas x s.next id (if x.fid = c!"b" then u else c!"kg") exUnitId (1 * 1))) := by
  have hi : IlcdFlows.unitFor (exEnv1 u) () (exEnv1 u).units = .ok exUnitId := rfl
  have ha : IlcdFlows.amountOf (exEnv1 u) x = .ok 1 := by rcases hx with rfl | rfl <;> rfl
  have hf : (exEnv1 u).file x.fid x.version x.uri = some gasFile := by rcases hx with rfl | rfl <;> rfl
  have hr : IlcdFlows.rowOf (exEnv1 u) x.fid = some (rowIn (if x.fid = c!"b" then u else c!"kg")) := by rcases hx with rfl | rfl <;> rfl
  have hs : x.shortNames ≠ [] := by rcases hx with rfl | rfl <;> simp [gasA, gasB]
  have hy : gasFile.typ = some c!"Elementary flow" := rfl
  have hb : IlcdFlows.baseName gasFile = .ok c!"co2" := rfl
  have hv : x.var = none ∧ x.unc = none ∧ x.comments = [] ∧ x.dir = c!"Output" := by rcases hx with rfl | rfl <;> simp [gasA, gasB]
  have hg : IlcdFlows.groups true (decide (x.internalId ∈ (exEnv1 u).refs)) x.dir c!"Elementary flow" = .ok (none, some 4) := by
    rcases hx with rfl | rfl <;> rfl
  have hl : ¬ (splitOn '/' c!"air/unspecified").length < 2 := by decide
  have hfin : IlcdFlows.finish (exEnv1 u) s ⟨x, true, c!"Elementary flow", s.next, 1 * 1, if x.fid = c!"b" then u else c!"kg", none, c!"co2", none,
      ⟨[], c!"co2", c!"Carbon dioxide", if x.fid = c!"b" then u else c!"kg", exUnitId, 1 * 1, none, none, [],
        none, none, none⟩⟩ = .ok ({ s with ids := s.ids ++ [id] },
          midGas x s.next id (if x.fid = c!"b" then u else c!"kg") exUnitId (1 * 1)) := by
    have h1 : IlcdFlows.freshId (exEnv1 u).hash s.ids ((exEnv1 u).process ++ c!"co2") = some id := hid
    unfold IlcdFlows.finish
    simp only [h1, hg, hv.2.2.1]
    rfl
  unfold IlcdFlows.convertOne
  rw [if_neg hs, ha]
  simp only [bind, Except.bind, hf, hy, if_true, hr]
  have hel : IlcdFlows.elementary (exEnv1 u) s x 1 gasFile (rowIn (if x.fid = c!"b" then u else c!"kg")) =
      .ok ({ s with ids := s.ids ++ [id] },
          midGas x s.next id (if x.fid = c!"b" then u else c!"kg") exUnitId (1 * 1)) := by
    unfold IlcdFlows.elementary
    have e2 : (rowIn (if x.fid = c!"b" then u else c!"kg")).context = c!"air/unspecified" := rfl
    have e3 : IlcdFlows.rowFactor (exEnv1 u) (rowIn (if x.fid = c!"b" then u else c!"kg")) = .ok 1 := rfl
    have e4 : ∀ v, (exEnv1 u).unit v = .ok ((), exScale v) := fun _ => rfl
    simp only [e2, if_neg hl, e3, e4, bind, Except.bind, hi, hb, hv.1, hv.2.1, Option.map_none]
    exact hfin
  rw [hel]

noncomputable def midPlain (u : Str) : List (IlcdFlows.Flow ℝ) :=
  [midWaste, midGas gasA 1 c!"co2" c!"kg" exUnitId (1 * 1), midGas gasB 2 c!"co21" u exUnitId (1 * 1)]

noncomputable def midSummed : List (IlcdFlows.Flow ℝ) :=
  [midWaste, midGas gasA 1 c!"co22" c!"kg" exUnitId (1 * 1 + 1 * 1 * (0.001 / 1))]

noncomputable def midState (u : Str) : IlcdFlows.St ℝ :=
  ⟨3, [c!"waste", c!"co2", c!"co21"], midPlain u, [(0, false, someId), (1, true, c!"co2"), (2, true, c!"co2")], [], []⟩

theorem ex_convert (u : Str) : IlcdFlows.convertAll (exEnv1 u) .empty exSource = .ok (midState u) := by
  have h1 := step_waste u
  have h2 := step_gas u gasA (.inl rfl) (({ IlcdFlows.St.empty with ids := [c!"waste"] } : IlcdFlows.St ℝ).put midWaste) c!"co2" rfl
  have h3 := step_gas u gasB (.inr rfl) { midState u with
    next := 2, ids := [c!"waste", c!"co2"], flows := (midPlain u).take 2, master := (midState u).master.take 2 } c!"co21" rfl
  simp only [exSource, IlcdFlows.convertAll, h1, Except.bind]
  rw [h2]
  simp only []
  erw [h3]
  rfl

theorem ex_plain (u : Str) : toEcs (exEnv1 u) false id exSource = .ok (midPlain u) := by
  unfold toEcs
  rw [ex_convert]
  rfl

theorem ex_summed : toEcs (exEnv1 c!"g") true id exSource = .ok midSummed := by
  unfold toEcs
  rw [ex_convert]
  show (IlcdFlows.merge (exEnv1 c!"g") (midState c!"g") [midGas gasA 1 c!"co2" c!"kg" exUnitId (1 * 1),
    midGas gasB 2 c!"co21" c!"g" exUnitId (1 * 1)]).bind (fun s => .ok s.flows) = _
  have hd : IlcdFlows.doubled [midGas gasA 1 c!"co2" c!"kg" exUnitId (1 * 1), midGas gasB 2 c!"co21" c!"g" exUnitId (1 * 1)] =
      [[midGas gasA 1 c!"co2" c!"kg" exUnitId (1 * 1), midGas gasB 2 c!"co21" c!"g" exUnitId (1 * 1)]] := rfl
  have hs : IlcdFlows.sumAll (exEnv1 c!"g") (midGas gasA 1 c!"co2" c!"kg" exUnitId (1 * 1)) [midGas gasB 2 c!"co21" c!"g" exUnitId (1 * 1)] =
      .ok { midGas gasA 1 c!"co2" c!"kg" exUnitId (1 * 1) with m := 1 * 1 + 1 * 1 * (0.001 / 1) } := rfl
  unfold IlcdFlows.merge
  rw [hd]
  simp only [IlcdFlows.mergeAll, IlcdFlows.mergeGroup, hs, bind, Except.bind]
  rfl

/-! ### The data set that comes back -/

def backWaste : EcsFlows.Exch := ⟨false, c!"waste", someId, c!"waste", c!"kg", c!"1", none, some c!"0", none, none, [], none, []⟩
def backGas (id u t : Str) : EcsFlows.Exch := ⟨true, id, c!"co2", c!"Carbon dioxide", u, t, none, some c!"4", none, none, [], none, []⟩

noncomputable def outWaste : EcsFlows.Flow :=
  ⟨backWaste, someId, c!"01.00.001", 1, .output, some .product, ⟨1 * 1, 1 * 1, none⟩, none, [], none⟩
noncomputable def outGas (id u t : Str) (k : Nat) (v : ℝ) : EcsFlows.Flow :=
  ⟨backGas id u t, otherId, c!"03.00.004", k, .output, some .elementary, ⟨v * 1 * 1, 1 * 1, none⟩, none, [], none⟩

theorem shown_one : exShown (1 * 1) = c!"1" := by simp [exShown]
theorem shown_sum : exShown (1 * 1 + 1 * 1 * (0.001 / 1)) = c!"x" := by
  unfold exShown
  rw [if_neg (by norm_num)]

theorem doc_plain (u : Str) : document exShown exExtras (midPlain u) = [backWaste, backGas c!"co2" c!"kg" c!"1", backGas c!"co21" u c!"1"] := by
  have : document exShown exExtras (midPlain u) = [{ backWaste with amount := exShown 1 }, backGas c!"co2" c!"kg" (exShown (1 * 1)),
    backGas c!"co21" u (exShown (1 * 1))] := rfl
  rw [this, shown_one, show exShown 1 = c!"1" by simp [exShown]]
  rfl

theorem doc_summed : document exShown exExtras midSummed = [backWaste, backGas c!"co22" c!"kg" c!"x"] := by
  have : document exShown exExtras midSummed = [{ backWaste with amount := exShown 1 },
    backGas c!"co22" c!"kg" (exShown (1 * 1 + 1 * 1 * (0.001 / 1)))] := rfl
  rw [this, shown_sum, show exShown 1 = c!"1" by simp [exShown]]
  rfl

private theorem run_waste : EcsFlows.step exEnv2 (EcsFlows.fresh []) backWaste = .ok ⟨none, none, [], 2, [1], some c!"waste, 1 kg",
    [(someId, [(1, ())])], [((someId, c!"01.00.001"), ())], [outWaste], []⟩ := by
  have h : exEnv2.conv someId = .ok someId := conv_back
  rw [EcsFlows.step, if_neg (by decide), EcsFlows.intermediate]
  simp only [show backWaste.fid = someId from rfl, h]
  rfl

noncomputable def outPlain (u : Str) : List EcsFlows.Flow := [outWaste, outGas c!"co2" c!"kg" c!"1" 2 1, outGas c!"co21" u c!"1" 3 1]
noncomputable def outSummed : List EcsFlows.Flow := [outWaste, outGas c!"co22" c!"kg" c!"x" 2 1.001]

private theorem run_plain (u : Str) : ∃ s, EcsFlows.run exEnv2 [backWaste, backGas c!"co2" c!"kg" c!"1", backGas c!"co21" u c!"1"] (EcsFlows.fresh []) = .ok s ∧
    s.shares = [] ∧ s.flows = outPlain u ∧ s.refs = [1] := by
  refine ⟨⟨none, none, [], 4, [1], some c!"waste, 1 kg", [(someId, [(1, ())]), (c!"co2", [(0, ())])],
    [((someId, c!"01.00.001"), ())], outPlain u, []⟩, ?_, rfl, rfl, rfl⟩
  simp only [EcsFlows.run, run_waste]
  rfl

private theorem run_summed : ∃ s, EcsFlows.run exEnv2 [backWaste, backGas c!"co22" c!"kg" c!"x"] (EcsFlows.fresh []) = .ok s ∧
    s.shares = [] ∧ s.flows = outSummed ∧ s.refs = [1] := by
  refine ⟨⟨none, none, [], 3, [1], some c!"waste, 1 kg", [(someId, [(1, ())]), (c!"co2", [(0, ())])],
    [((someId, c!"01.00.001"), ())], outSummed, []⟩, ?_, rfl, rfl, rfl⟩
  simp only [EcsFlows.run, run_waste]
  rfl

theorem ex_back_plain (u : Str) : ∃ d, toIlcd exEnv2 exFenv false exShown exExtras (midPlain u) = .ok d ∧
    d.flows = (outPlain u).map (fun f => { f with mean := some f.amount.m }) ∧ d.refs = [1] := by
  obtain ⟨s, h1, h2, h3, h4⟩ := run_plain u
  have hf : ([backWaste, backGas c!"co2" c!"kg" c!"1", backGas c!"co21" u c!"1"].filterMap (RoundTrip.fileExchange exEnv2)) =
      [.intermediate someId () ⟨c!"waste", some .product⟩, .elementary c!"co2" otherId (), .elementary c!"co2" otherId ()] := rfl
  have hr : ∃ r, FlowFiles.run exFenv ⟨[], []⟩ [.intermediate someId () (⟨c!"waste", some .product⟩ : RoundTrip.Info),
      .elementary c!"co2" otherId (), .elementary c!"co2" otherId ()] = .ok r := ⟨(⟨[(someId, [(1, ())]), (c!"co2", [(0, ())])],
    [(someId ++ c!"_01.00.001.xml", .made c!"01.00.001" () ⟨c!"waste", some .product⟩), (otherId ++ c!".xml", .copied otherId)]⟩,
    [⟨someId, c!"01.00.001", c!"../flows/" ++ someId ++ c!"_01.00.001"⟩, ⟨otherId, c!"03.00.004", c!"../flows/" ++ otherId⟩,
      ⟨otherId, c!"03.00.004", c!"../flows/" ++ otherId⟩]), by decide +kernel⟩
  obtain ⟨⟨st, rs⟩, hr⟩ := hr
  have hu := EcsFlows.unmerged (outPlain u)
  refine ⟨⟨(outPlain u).map (fun f => { f with mean := some f.amount.m }), [1], st.files, rs⟩, ?_, rfl, rfl⟩
  unfold toIlcd
  rw [doc_plain]
  unfold there
  simp only [h1, bind, Except.bind, h2, h3, hu, hf, hr, h4]

theorem ex_back_summed : ∃ d, toIlcd exEnv2 exFenv false exShown exExtras midSummed = .ok d ∧
    d.flows = outSummed.map (fun f => { f with mean := some f.amount.m }) ∧ d.refs = [1] := by
  obtain ⟨s, h1, h2, h3, h4⟩ := run_summed
  have hf : ([backWaste, backGas c!"co22" c!"kg" c!"x"].filterMap (RoundTrip.fileExchange exEnv2)) =
      [.intermediate someId () ⟨c!"waste", some .product⟩, .elementary c!"co2" otherId ()] := rfl
  have hr : ∃ r, FlowFiles.run exFenv ⟨[], []⟩ [.intermediate someId () (⟨c!"waste", some .product⟩ : RoundTrip.Info),
      .elementary c!"co2" otherId ()] = .ok r := ⟨(⟨[(someId, [(1, ())]), (c!"co2", [(0, ())])],
    [(someId ++ c!"_01.00.001.xml", .made c!"01.00.001" () ⟨c!"waste", some .product⟩), (otherId ++ c!".xml", .copied otherId)]⟩,
    [⟨someId, c!"01.00.001", c!"../flows/" ++ someId ++ c!"_01.00.001"⟩, ⟨otherId, c!"03.00.004", c!"../flows/" ++ otherId⟩]),
      by decide +kernel⟩
  obtain ⟨⟨st, rs⟩, hr⟩ := hr
  have hu := EcsFlows.unmerged outSummed
  refine ⟨⟨outSummed.map (fun f => { f with mean := some f.amount.m }), [1], st.files, rs⟩, ?_, rfl, rfl⟩
  unfold toIlcd
  rw [doc_summed]
  unfold there
  simp only [h1, bind, Except.bind, h2, h3, hu, hf, hr, h4]

theorem legible_plain (u : Str) : Legible exEnv2 exShown (midPlain u) := by
  intro fl hfl
  simp only [midPlain, List.mem_cons, List.not_mem_nil, or_false] at hfl
  have h1 : exShown 1 = c!"1" := by simp [exShown]
  rcases hfl with rfl | rfl | rfl
  · show exEnv2.flt (exShown 1) = .ok 1
    rw [h1]; rfl
  · show exEnv2.flt (exShown (1 * 1)) = .ok (1 * 1)
    rw [shown_one, one_mul]; rfl
  · show exEnv2.flt (exShown (1 * 1)) = .ok (1 * 1)
    rw [shown_one, one_mul]; rfl

theorem legible_summed : Legible exEnv2 exShown midSummed := by
  intro fl hfl
  simp only [midSummed, List.mem_cons, List.not_mem_nil, or_false] at hfl
  have h1 : exShown 1 = c!"1" := by simp [exShown]
  rcases hfl with rfl | rfl
  · show exEnv2.flt (exShown 1) = .ok 1
    rw [h1]; rfl
  · show exEnv2.flt (exShown (1 * 1 + 1 * 1 * (0.001 / 1))) = .ok (1 * 1 + 1 * 1 * (0.001 / 1))
    rw [shown_sum]
    show Except.ok (1.001 : ℝ) = _
    norm_num

/-- The theorems on both conversions apply to the example. -/
example : ∃ d, Setting (exEnv1 c!"kg") exEnv2 exFenv E0 exSource ∧ Sizes (exEnv1 c!"kg") exScale ∧
    toEcs (exEnv1 c!"kg") false id exSource = .ok (midPlain c!"kg") ∧ Legible exEnv2 exShown (midPlain c!"kg") ∧
    toIlcd exEnv2 exFenv false exShown exExtras (midPlain c!"kg") = .ok d ∧ SameUnits (exEnv1 c!"kg") exSource := by
  obtain ⟨d, h, -⟩ := ex_back_plain c!"kg"
  refine ⟨d, ex_setting _, ex_sizes _, ex_plain _, legible_plain _, h, ?_⟩
  intro x hx y hy f g r r' h1 h2 h3 h4 h5
  rw [row_target h3, row_target h4]
  simp [rowIn]

/-- C168: the waste of the example comes back. -/
theorem ex_product : ∃ d, toIlcd exEnv2 exFenv false exShown exExtras (midPlain c!"kg") = .ok d ∧ ProductBack (exEnv1 c!"kg") exEnv2
    (document exShown exExtras (midPlain c!"kg")) d exSource waste { outWaste with mean := some outWaste.amount.m } ∧
    { outWaste with mean := some outWaste.amount.m } ∈ d.flows := by
  classical
  obtain ⟨d, h, hf, -⟩ := ex_back_plain c!"kg"
  have hp := products_back (ex_setting _) (fun l => List.Perm.refl l) (ex_sizes _) (ex_plain _) (legible_plain _) h
  have hfl : (d.flows.filter fun g => decide (g.ftype ≠ some .elementary)) = [{ outWaste with mean := some outWaste.amount.m }] := by
    rw [hf]; rfl
  rw [hfl] at hp
  obtain ⟨x, l, hx, -, hl⟩ := List.forall₂_cons_right_iff.1 hp
  have hxm : x ∈ exSource.filter _ := hl ▸ List.mem_cons_self
  obtain ⟨hxs, hpr⟩ := List.mem_filter.1 hxm
  obtain ⟨f, i, n, hpr, -⟩ := of_decide_eq_true hpr
  obtain rfl := product_waste hxs hpr
  refine ⟨d, h, hx, ?_⟩
  have : ({ outWaste with mean := some outWaste.amount.m } : EcsFlows.Flow) ∈ d.flows.filter fun g => decide (g.ftype ≠ some .elementary) := by
    rw [hfl]; simp
  exact (List.mem_filter.1 this).1

/-- C169, refuted: the waste that is treated, an input, comes back as a product that is an output. -/
theorem treatment_lost : ∃ d g r p n, toEcs (exEnv1 c!"kg") false id exSource = .ok (midPlain c!"kg") ∧
    toIlcd exEnv2 exFenv false exShown exExtras (midPlain c!"kg") = .ok d ∧ g ∈ d.flows ∧ g.target = waste.fid ∧
    waste.dir = c!"Input" ∧ g.dir = .output ∧ IsProduct (exEnv1 c!"kg") waste wasteFile ∧ wasteFile.typ = some c!"Waste flow" ∧
    d.links[g.internalId - 1]? = some r ∧ RoundTrip.lookup d.files r.id r.version r.uri = some (.made r.version p ⟨n, some .product⟩) := by
  obtain ⟨d, h, hx, hm⟩ := ex_product
  obtain ⟨r, p, y, f', name, e, h1, h2, -, hy, hyf, hpy, hn, -, -, h3⟩ := hx.file
  obtain rfl := product_waste hy hpy
  have ht : typeBack (exEnv1 c!"kg") waste f' = .product := by
    unfold typeBack
    rw [if_neg]
    rintro ⟨-, h, -⟩
    exact h rfl
  rw [ht] at h3
  exact ⟨d, _, r, p, name, ex_plain _, h, hm, hx.target, rfl, rfl, ⟨rfl, by decide⟩, rfl, h1, h3⟩

/-- C171, refuted where two rows of the table have the same flow in different units: a kilogram and a gram of carbon dioxide come back as
two kilograms, but as 1.001 kilograms if they are summed in the middle. -/
theorem total_depends_on_summing : ∃ d d', toEcs (exEnv1 c!"g") false id exSource = .ok (midPlain c!"g") ∧
    toEcs (exEnv1 c!"g") true id exSource = .ok midSummed ∧
    toIlcd exEnv2 exFenv false exShown exExtras (midPlain c!"g") = .ok d ∧
    toIlcd exEnv2 exFenv false exShown exExtras midSummed = .ok d' ∧
    Setting (exEnv1 c!"g") exEnv2 exFenv E0 exSource ∧ Sizes (exEnv1 c!"g") exScale ∧
    Legible exEnv2 exShown (midPlain c!"g") ∧ Legible exEnv2 exShown midSummed ∧
    written d otherId .output = 2 ∧ written d' otherId .output = 1.001 := by
  obtain ⟨d, h, hf, -⟩ := ex_back_plain c!"g"
  obtain ⟨d', h', hf', -⟩ := ex_back_summed
  refine ⟨d, d', ex_plain _, ex_summed, h, h', ex_setting _, ex_sizes _, legible_plain _, legible_summed, ?_, ?_⟩
  · unfold written
    rw [hf]
    have : (((outPlain c!"g").map (fun f => { f with mean := some f.amount.m })).filter fun g =>
        decide (g.ftype = some .elementary ∧ g.target = otherId ∧ g.dir = .output)).map (fun g => g.mean.getD 0) = [1 * 1 * 1, 1 * 1 * 1] := rfl
    rw [this]
    norm_num
  · unfold written
    rw [hf']
    have : ((outSummed.map (fun f => { f with mean := some f.amount.m })).filter fun g =>
        decide (g.ftype = some .elementary ∧ g.target = otherId ∧ g.dir = .output)).map (fun g => g.mean.getD 0) = [1.001 * 1 * 1] := rfl
    rw [this]
    norm_num

/-! ### Units -/

/-- The unit of ILCD with the dimension of a unit of EcoSpold2. -/
def dimUnit (u : Str) : Str := ((RoundTrip.Spec.synonyms ++ RoundTrip.Spec.strangers).find? fun q => q.2 = u).elim u (·.1)

/-- Pint, with the keys of the table as dimensions and the sizes it has for money and for mass over time. -/
noncomputable def exPint : RefUnits.Pint ℝ where
  dim := fun u => ((Units.pintToIlcdDef.find? fun r => r.2.2.2 = dimUnit u).map (·.1)).getD []
  size := fun u => if u = c!"EUR2000" then 1.11 else if u = c!"kg*a" then 365.25 else 1
  base := id

theorem ex_dimensions : Dimensions exPint id where
  rows := by
    have h : (Units.pintToIlcdDef.all fun r => decide (RefUnits.correctDim
        (((Units.pintToIlcdDef.find? fun r' => r'.2.2.2 = dimUnit r.2.2.2).map (·.1)).getD []) = r.1)) = true := by decide +kernel
    intro r hr
    exact of_decide_eq_true (List.all_eq_true.1 h r hr)
  same := by
    have h : ((RoundTrip.Spec.synonyms ++ RoundTrip.Spec.strangers).all fun q =>
        decide (((Units.pintToIlcdDef.find? fun r' => r'.2.2.2 = dimUnit q.2).map (·.1)).getD [] =
          ((Units.pintToIlcdDef.find? fun r' => r'.2.2.2 = dimUnit q.1).map (·.1)).getD [])) = true := by decide +kernel
    intro q hq
    exact of_decide_eq_true (List.all_eq_true.1 h q hq)

/-- `value_back`, `value_kept_iff` and `value_kept_partial`: kilograms. -/
example : ∃ d g, ProductBack (exEnv1 c!"kg") exEnv2 (document exShown exExtras (midPlain c!"kg")) d exSource waste g ∧
    (c!"kg", IlcdFlows.underscore g.src.unit) ∈ RoundTrip.Spec.synonyms ∧ exPint.size c!"kg" ≠ 0 ∧
    (∀ q ∈ RoundTrip.Spec.synonyms, exPint.size q.1 = exPint.size q.2) ∧
    exEnv2.unitFactor g.src.unit = .ok (RefUnits.toIlcdUnit exPint id 1 ⟨1, IlcdFlows.underscore g.src.unit⟩).2 := by
  obtain ⟨d, -, hx, -⟩ := ex_product
  refine ⟨d, _, hx, by decide, by simp [exPint], ?_, ?_⟩
  · intro q hq
    have hn : ∀ q ∈ RoundTrip.Spec.synonyms, (q.1 ≠ c!"EUR2000" ∧ q.1 ≠ c!"kg*a") ∧ q.2 ≠ c!"EUR2000" ∧ q.2 ≠ c!"kg*a" := by decide
    obtain ⟨⟨a1, a2⟩, a3, a4⟩ := hn q hq
    simp [exPint, a1, a2, a3, a4]
  · have hu : IlcdFlows.underscore outWaste.src.unit = c!"kg" := by decide
    obtain ⟨r, -, h1, -, h2⟩ := unit_row (u := c!"kg") (n := c!"kg") ex_dimensions (by decide)
    have h2' : aget (id (RefUnits.correctDim (exPint.dim c!"kg"))) Units.pintToIlcdDef = some (r.2.1, r.2.2.1, c!"kg") := by rw [h2, ← h1]
    obtain ⟨-, -, h3⟩ := RefUnits.converted (p := exPint) (f := 1) (q := ⟨1, c!"kg"⟩) h2' (by simp [exPint])
    show Except.ok (1 : ℝ) = .ok (RefUnits.toIlcdUnit exPint id 1 ⟨1, IlcdFlows.underscore outWaste.src.unit⟩).2
    rw [hu]
    have hs : exPint.size c!"kg" = 1 := by simp [exPint]
    rw [hs, mul_one, mul_one] at h3
    rw [h3]

/-- The waste, measured by its price. -/
def moneyFile : IlcdFlows.FlowFile := { wasteFile with refProperty := some c!"67b63204-ef91-44b2-a927-2f4ead1fae17" }

noncomputable def exMoney1 : IlcdFlows.Env ℝ Unit := { exEnv1 c!"kg" with file := fun i _ _ => some (if i = someId then moneyFile else gasFile) }

noncomputable def exMoney2 : EcsFlows.Env Unit :=
  { exEnv2 with unitFactor := fun u => .ok (RefUnits.toIlcdUnit exPint id 1 ⟨1, IlcdFlows.underscore u⟩).2 }

/-- `money_back`. -/
example : ∃ (ys : List EcsFlows.Exch) (d : Doc Unit) (g : EcsFlows.Flow), ProductBack exMoney1 exMoney2 ys d exSource waste g ∧
    g.src.unit = c!"EUR2005" ∧
    exMoney2.unitFactor g.src.unit = .ok (RefUnits.toIlcdUnit exPint id 1 ⟨1, IlcdFlows.underscore g.src.unit⟩).2 ∧
    exPint.size c!"EUR2000" = 1.11 ∧ exPint.size c!"EUR2005" = 1 := by
  obtain ⟨d, h, hx, hm⟩ := ex_product
  obtain ⟨r, p, y, f', name, e, h1, h2, h4, hy, hyf, hpy, hn, -, -, h3⟩ := hx.file
  obtain rfl := product_waste hy hpy
  have hf' : wasteFile = f' := Option.some.inj hpy.1
  subst hf'
  refine ⟨[{ backWaste with unit := c!"EUR2005" }], d, { outWaste with
    src := { backWaste with unit := c!"EUR2005" }
    mean := some (1 * (RefUnits.toIlcdUnit exPint id 1 ⟨1, IlcdFlows.underscore c!"EUR2005"⟩).2) }, ⟨hx.target, hx.dir, hx.reference, ?_, ?_⟩,
    rfl, rfl, by simp [exPint], by simp [exPint]⟩
  · refine ⟨moneyFile, c!"7b75baf0-cbee-45e6-bf66-af119da06553", c!"EUR2005", 1, _, ⟨rfl, by decide⟩, ?_, ⟨c!"1", .inl rfl, rfl⟩, rfl, rfl, rfl, ?_⟩
    · exact ⟨_, rfl, by show aget _ Units.ilcdToEcsUnit = _; decide +kernel⟩
    · intro w hw
      cases hw
  · exact ⟨r, p, waste, moneyFile, name, { backWaste with unit := c!"EUR2005" }, h1, h2, rfl, hy, hyf, ⟨rfl, by decide⟩, hn,
      ⟨[], [], rfl, ⟨rfl, rfl, (), rfl, rfl⟩, by simp⟩, Option.some.inj hn, h3⟩

/-- `property_back`: the gross calorific value comes back as the net one. -/
example : ∃ r s', aget grossValue Units.ilcdToEcsUnit = some (c!"980b811e-3905-4797-82a5-173f5568bc7e", c!"MJ") ∧
    (c!"MJ", IlcdFlows.underscore c!"MJ") ∈ RoundTrip.Spec.synonyms ++ RoundTrip.Spec.strangers ∧
    RefUnits.unitProperty id none (exPint.dim (IlcdFlows.underscore c!"MJ")) (RefUnits.St.start [] []) = .ok (r, s') ∧ r.id = netValue := by
  have hd : exPint.dim (IlcdFlows.underscore c!"MJ") = c!"f09fb2f1-8af1-3630-8463-c7ebc26474be" := by
    show ((Units.pintToIlcdDef.find? fun r => r.2.2.2 = dimUnit (IlcdFlows.underscore c!"MJ")).map (·.1)).getD [] = _
    decide +kernel
  rw [hd]
  have : ∃ x, RefUnits.unitProperty id none c!"f09fb2f1-8af1-3630-8463-c7ebc26474be" (RefUnits.St.start [] []) = .ok x ∧ x.1.id = netValue :=
    ⟨_, rfl, by decide⟩
  obtain ⟨⟨r, s'⟩, h1, h2⟩ := this
  exact ⟨r, s', by decide +kernel, by decide, h1, h2⟩

end Verif.RoundIlcd
