/-
Types, directions, flow properties and quantities of the products of an ILCD data set after a conversion to EcoSpold2 and back.
-/
import Verif.Props.RoundIlcdSums

namespace Verif.RoundIlcd

open IlcdFlows.Spec (IsProduct IsElementary HasUnit Value ToWrite)
open RoundTrip (Doc there)
open RoundTrip.Spec (synonyms strangers)
open Spec

section

variable {P D : Type} [DecidableEq P] {env1 : IlcdFlows.Env ℝ D} {env2 : EcsFlows.Env P} {ys : List EcsFlows.Exch} {d : Doc P}
  {xs : List (IlcdFlows.Exch ℝ)} {x : IlcdFlows.Exch ℝ} {g : EcsFlows.Flow}

/-! ### Types and directions -/

/-- C169, directions: exactly the reference flows that are inputs come back as outputs. -/
theorem direction_kept_iff (h : ProductBack env1 env2 ys d xs x g) : g.dir = toward x ↔ ¬ (Reference env1 x ∧ x.dir = c!"Input") := by
  rw [h.dir]
  unfold dirBack toward
  by_cases h1 : x.dir = c!"Input" <;> by_cases h2 : Reference env1 x <;> simp [h1, h2]

/-- C169, types: the type of the file is that of a source file exactly if this is a product, or a waste that is described by an output
other than the reference flow. No other type comes back. -/
theorem type_kept_iff {y : IlcdFlows.Exch ℝ} {f : IlcdFlows.FlowFile} : f.typ = some (RoundTrip.typeText (typeBack env1 y f)) ↔
    f.typ = some c!"Product flow" ∨ (f.typ = some c!"Waste flow" ∧ ¬ Reference env1 y ∧ y.dir ≠ c!"Input") := by
  unfold typeBack
  split
  · rename_i h
    rw [h.2.2]
    simp [RoundTrip.typeText, h.1, h.2.1]
  · rename_i h
    show f.typ = some c!"Product flow" ↔ _
    constructor
    · exact .inl
    · rintro (h1 | ⟨h1, h2, h3⟩)
      · exact h1
      · exact absurd ⟨h2, h3, h1⟩ h

/-- C169: if the file of the flow is the only one of it and its exchanges are alike, the type of the flow is kept exactly under this
condition. -/
theorem type_back (h : ProductBack env1 env2 ys d xs x g) {f : IlcdFlows.FlowFile} (hx : IsProduct env1 x f)
    (hone : ∀ y ∈ xs, y.fid = x.fid → (y.version = x.version ∧ y.uri = x.uri) ∧ y.dir = x.dir ∧ (Reference env1 y ↔ Reference env1 x)) :
    ∃ r p i, d.links[g.internalId - 1]? = some r ∧ RoundTrip.lookup d.files r.id r.version r.uri = some (.made r.version p i) ∧
      f.names.head? = some i.name ∧
      (i.ftype.map RoundTrip.typeText = f.typ ↔ f.typ = some c!"Product flow" ∨
        (f.typ = some c!"Waste flow" ∧ ¬ Reference env1 x ∧ x.dir ≠ c!"Input")) := by
  obtain ⟨r, p, y, f', name, e, h1, h2, -, hy, hf, hp, hn, -, -, h3⟩ := h.file
  obtain ⟨⟨hv, hu⟩, hd, hr⟩ := hone y hy hf
  have : f = f' := by
    have e1 := hp.1
    rw [hf, hv, hu, hx.1] at e1
    exact Option.some.inj e1
  subst this
  refine ⟨r, p, _, h1, h3, hn, ?_⟩
  have := type_kept_iff (env1 := env1) (y := y) (f := f)
  rw [hr, hd] at this
  rw [eq_comm]
  exact this

end

/-! ### Flow properties and quantities -/

section

variable {p : RefUnits.Pint ℝ} {hash : Str → Str} {q i n u : Str}

/-- The flow property written for a unit, as the tables have it. -/
private def backOf (r : Str × (Str × Str × Str)) (q : Str) : Bool :=
  (match aget r.1 Units.pintToIlcdFp with
    | none => true
    | some w => decide (w.fp = propertyBack none q)) &&
  (if r.1 = RefUnits.energyKey then decide (q = netValue ∨ q = grossValue) else decide (q ≠ netValue ∧ q ≠ grossValue))

private theorem all_back : (Units.ilcdToEcsUnit.all fun e => (synonyms ++ strangers).all fun s =>
    !decide (s.2 = IlcdFlows.underscore e.2.2) || Units.pintToIlcdDef.all fun r => !decide (r.2.2.2 = s.1) || backOf r e.1) = true := by
  decide +kernel

private theorem gross_back : (aget c!"f09fb2f1-8af1-3630-8463-c7ebc26474bf" Units.pintToIlcdFp).map (·.fp) = some grossValue := by
  decide +kernel

private theorem all_known : ((synonyms ++ strangers).all fun s => Units.pintToIlcdDef.any fun r => decide (r.2.2.2 = s.1)) = true := by
  decide +kernel

/-- The unit of ILCD for a unit of EcoSpold2. -/
theorem unit_row (hd : Dimensions p hash) (hs : (u, n) ∈ synonyms ++ strangers) : ∃ r ∈ Units.pintToIlcdDef, r.2.2.2 = u ∧
    hash (RefUnits.correctDim (p.dim n)) = r.1 ∧ aget (hash (RefUnits.correctDim (p.dim n))) Units.pintToIlcdDef = some r.2 := by
  have := List.all_eq_true.1 all_known _ hs
  obtain ⟨r, hr, e⟩ := List.any_eq_true.1 this
  have e : r.2.2.2 = u := of_decide_eq_true e
  have hk : hash (RefUnits.correctDim (p.dim n)) = r.1 := by
    rw [hd.same _ hs, ← hd.rows r hr, e]
  refine ⟨r, hr, e, hk, ?_⟩
  rw [hk]
  have h : (Units.pintToIlcdDef.all fun r => decide (aget r.1 Units.pintToIlcdDef = some r.2)) = true := by decide +kernel
  exact of_decide_eq_true (List.all_eq_true.1 h r hr)

/-- C170: the flow property of a product after both conversions. -/
theorem property_back (hd : Dimensions p hash) (hq : aget q Units.ilcdToEcsUnit = some (i, n))
    (hs : (u, IlcdFlows.underscore n) ∈ synonyms ++ strangers) {e : Option Str} {s s' : RefUnits.St} {r : RefUnits.Ref}
    (hr : RefUnits.unitProperty hash e (p.dim (IlcdFlows.underscore n)) s = .ok (r, s')) : r.id = propertyBack e q := by
  obtain ⟨row, hrow, hu, hk, -⟩ := unit_row hd hs
  obtain ⟨k, w, h1, h2, h3⟩ := RefUnits.unitProperty_row hr
  have h4 := List.all_eq_true.1 all_back _ (aget_mem hq)
  have h4 := List.all_eq_true.1 h4 _ hs
  rw [Bool.or_eq_true] at h4
  have h4 := List.all_eq_true.1 (h4.resolve_left (by simp)) _ hrow
  rw [Bool.or_eq_true] at h4
  have h4 := h4.resolve_left (by simp [hu])
  unfold backOf at h4
  rw [Bool.and_eq_true] at h4
  obtain ⟨h5, h6⟩ := h4
  rw [(RefUnits.refer_ref h3).1]
  rw [hk] at h1
  unfold RefUnits.energyProp at h1
  have plain : k = row.1 → w.fp = propertyBack none q := by
    intro hkk
    rw [hkk] at h2
    rw [h2] at h5
    exact of_decide_eq_true h5
  by_cases he : row.1 = RefUnits.energyKey
  · rw [if_pos he] at h1 h6
    have h6 := of_decide_eq_true h6
    have hnone : propertyBack none q = netValue := by unfold propertyBack; rw [if_pos h6]; simp
    have hpb : ∀ e : Option Str, propertyBack e q = if e = some c!"gross calorific value" then grossValue else netValue := by
      intro e; unfold propertyBack; rw [if_pos h6]
    cases e with
    | none => rw [plain (Option.some.inj h1).symm]
    | some e =>
      simp only at h1
      rw [hpb]
      split at h1
      · rename_i h7
        rw [plain (Option.some.inj h1).symm, hnone, h7, if_neg (by decide)]
      · split at h1
        · rename_i h7
          rw [plain (Option.some.inj h1).symm, hnone, h7, if_neg (by decide)]
        · split at h1
          · rename_i h7
            rw [h7, if_pos rfl]
            rw [← Option.some.inj h1] at h2
            have := gross_back
            rw [h2] at this
            exact Option.some.inj this
          · cases h1
  · rw [if_neg he] at h1 h6
    have h6 := of_decide_eq_true h6
    rw [plain (Option.some.inj h1).symm]
    have h7 : ¬ (q = netValue ∨ q = grossValue) := not_or.2 h6
    unfold propertyBack
    rw [if_neg h7, if_neg h7]

/-- C170, exactly: a flow property is kept unless it is the normal volume, or the gross calorific value (in a data set about gross values:
the net calorific value). -/
theorem property_kept_iff {e : Option Str} : propertyBack e q = q ↔
    q ≠ normalVolume ∧ (q = grossValue → e = some c!"gross calorific value") ∧ (q = netValue → e ≠ some c!"gross calorific value") := by
  have h1 : netValue ≠ grossValue := by decide
  have h2 : volume ≠ normalVolume := by decide
  have h3 : normalVolume ≠ netValue ∧ normalVolume ≠ grossValue := by decide
  unfold propertyBack
  by_cases hn : q = netValue
  · subst hn
    by_cases he : e = some c!"gross calorific value" <;> simp [he, h1, h1.symm, h3.1.symm]
  · by_cases hg : q = grossValue
    · subst hg
      by_cases he : e = some c!"gross calorific value" <;> simp [he, h1, h1.symm, h3.2.symm]
    · by_cases hv : q = normalVolume
      · subst hv; simp [h3, h2]
      · simp [hn, hg, hv]

/-- Every flow property with a unit in EcoSpold2, but four: their units have no counterpart among those of ILCD. -/
theorem counterpart (hq : aget q Units.ilcdToEcsUnit = some (i, n)) :
    (∃ u, (u, IlcdFlows.underscore n) ∈ synonyms ++ strangers) ∨ n ∈ [c!"Items*a", c!"mol", c!"m3*km", c!"dimensionless"] := by
  have h : (Units.ilcdToEcsUnit.all fun e => ((synonyms ++ strangers).any fun s => decide (s.2 = IlcdFlows.underscore e.2.2)) ||
      decide (e.2.2 ∈ [c!"Items*a", c!"mol", c!"m3*km", c!"dimensionless"])) = true := by decide +kernel
  have := List.all_eq_true.1 h _ (aget_mem hq)
  rw [Bool.or_eq_true] at this
  rcases this with h1 | h1
  · obtain ⟨s, hs, e⟩ := List.any_eq_true.1 h1
    have e := of_decide_eq_true e
    exact .inl ⟨s.1, by rw [← e]; exact hs⟩
  · exact .inr (of_decide_eq_true h1)

variable {P D : Type} [DecidableEq P] {env1 : IlcdFlows.Env ℝ D} {env2 : EcsFlows.Env P} {ys : List EcsFlows.Exch} {d : Doc P}
  {xs : List (IlcdFlows.Exch ℝ)} {x : IlcdFlows.Exch ℝ} {g : EcsFlows.Flow}

/-- C170: the value of a product after both conversions, from the sizes of the units. The unit of EcoSpold2 is put in the place of that of
ILCD with the value as it is, and converted on the way back. -/
theorem value_back (h : ProductBack env1 env2 ys d xs x g) (hd : Dimensions p hash) (hs : (u, IlcdFlows.underscore g.src.unit) ∈ synonyms ++ strangers)
    (hf : env2.unitFactor g.src.unit = .ok (RefUnits.toIlcdUnit p hash 1 ⟨1, IlcdFlows.underscore g.src.unit⟩).2) (h0 : p.size u ≠ 0) :
    ∃ a v, Value env1 x a ∧ g.mean = some v ∧ v * p.size u = a * p.size (IlcdFlows.underscore g.src.unit) := by
  obtain ⟨f, i, n, a, c, -, -, h1, h2, h3, h4, -⟩ := h.amount
  rw [← h4] at h2
  obtain ⟨r, -, hu, -, hk⟩ := unit_row hd hs
  have hk' : aget (hash (RefUnits.correctDim (p.dim (IlcdFlows.underscore g.src.unit)))) Units.pintToIlcdDef = some (r.2.1, r.2.2.1, u) := by
    rw [hk, ← hu]
  obtain ⟨-, -, h5⟩ := RefUnits.converted (p := p) (f := 1) (q := ⟨1, IlcdFlows.underscore g.src.unit⟩) hk' h0
  refine ⟨a, a * c, h1, h3, ?_⟩
  rw [Except.ok.inj (h2.symm.trans hf), mul_assoc, h5, one_mul]

/-- C170, exactly: a value other than zero is kept if and only if the units have the same size. -/
theorem value_kept_iff (h : ProductBack env1 env2 ys d xs x g) (hd : Dimensions p hash)
    (hs : (u, IlcdFlows.underscore g.src.unit) ∈ synonyms ++ strangers)
    (hf : env2.unitFactor g.src.unit = .ok (RefUnits.toIlcdUnit p hash 1 ⟨1, IlcdFlows.underscore g.src.unit⟩).2) (h0 : p.size u ≠ 0)
    {a : ℝ} (ha : Value env1 x a) (hn : a ≠ 0) : g.mean = some a ↔ p.size (IlcdFlows.underscore g.src.unit) = p.size u := by
  obtain ⟨a', v, h1, h2, h3⟩ := value_back h hd hs hf h0
  obtain rfl : a = a' := by
    obtain ⟨t, e1, e2⟩ := ha
    obtain ⟨t', g1, g2⟩ := h1
    obtain rfl : t = t' := by
      rcases e1 with e1 | ⟨e1, e1'⟩ <;> rcases g1 with g1 | ⟨g1, g1'⟩
      · exact Option.some.inj (e1.symm.trans g1)
      · rw [e1] at g1; cases g1
      · rw [e1] at g1; cases g1
      · exact Option.some.inj (e1'.symm.trans g1')
    exact Except.ok.inj (e2.symm.trans g2)
  rw [h2, Option.some.injEq]
  constructor
  · rintro rfl
    exact (mul_left_cancel₀ hn h3).symm
  · intro e
    rw [e] at h3
    exact mul_right_cancel₀ h0 h3

/-- C170: except for amounts of money and of mass over time, the value is kept. -/
theorem value_kept_partial (h : ProductBack env1 env2 ys d xs x g) (hd : Dimensions p hash)
    (hs : (u, IlcdFlows.underscore g.src.unit) ∈ synonyms) (hsz : ∀ q ∈ synonyms, p.size q.1 = p.size q.2)
    (hf : env2.unitFactor g.src.unit = .ok (RefUnits.toIlcdUnit p hash 1 ⟨1, IlcdFlows.underscore g.src.unit⟩).2) (h0 : p.size u ≠ 0) :
    ∃ a, Value env1 x a ∧ g.mean = some a := by
  obtain ⟨a, v, h1, h2, h3⟩ := value_back h hd (List.mem_append_left _ hs) hf h0
  rw [← hsz _ hs] at h3
  exact ⟨a, h1, by rw [h2, mul_right_cancel₀ h0 h3]⟩

/-- C170, refuted for money: amounts of money are divided by 1.11. -/
theorem money_back (h : ProductBack env1 env2 ys d xs x g) (hd : Dimensions p hash) (hs : g.src.unit = c!"EUR2005")
    (hf : env2.unitFactor g.src.unit = .ok (RefUnits.toIlcdUnit p hash 1 ⟨1, IlcdFlows.underscore g.src.unit⟩).2)
    (h1 : p.size c!"EUR2000" = 1.11) (h2 : p.size c!"EUR2005" = 1) : ∃ a v, Value env1 x a ∧ g.mean = some v ∧ v * 1.11 = a := by
  have hu : IlcdFlows.underscore g.src.unit = c!"EUR2005" := by rw [hs]; decide
  obtain ⟨a, v, h3, h4, h5⟩ := value_back (u := c!"EUR2000") h hd (by rw [hu]; decide) hf (by rw [h1]; norm_num)
  rw [hu, h1, h2, mul_one] at h5
  exact ⟨a, v, h3, h4, h5⟩

end

end Verif.RoundIlcd
