/-
The flow properties of a file with their uncertainties, name by name.
-/
import Verif.Lemmas.ScaleLaw
import Verif.Props.IlcdProps
import Verif.Spec.IlcdPropUnc

namespace Verif.IlcdPropUnc
open Verif.Units
open IlcdProps (FileProp Env Pr Energy asRead marks)
open Uncertainty (Kind EcsWritten)

/-! ### Without the uncertainties -/

theorem aget_mapped {α β : Type} (f : α → β) (k : Str) (d : List (Str × α)) :
    aget k (d.map fun e => (e.1, f e.2)) = (aget k d).map f := by
  induction d with
  | nil => rfl
  | cons e d ih =>
    obtain ⟨j, p⟩ := e
    simp only [List.map_cons, aget] at ih ⊢
    split_ifs <;> simp [ih]

theorem aset_mapped {α β : Type} (f : α → β) (k : Str) (p : α) (d : List (Str × α)) :
    (aset k p d).map (fun e => (e.1, f e.2)) = aset k (f p) (d.map fun e => (e.1, f e.2)) := by
  induction d with
  | nil => rfl
  | cons e d ih =>
    obtain ⟨j, q⟩ := e
    simp only [List.map_cons, aset] at ih ⊢
    split_ifs <;> simp [ih]

/-- The properties that were read, without their uncertainties. -/
def bare (d : List (Str × Option UPr)) : List (Str × Option (Pr ℝ)) := d.map fun e => (e.1, e.2.map UPr.pr)

/-- The same of the properties that are converted. -/
def plain (d : List (Str × UPr)) : List (Str × Pr ℝ) := d.map fun e => (e.1, e.2.pr)

theorem normalInit_ok {env : Env ℝ} {y : UFile} {p : Option UPr} {e : List Energy} (h : normalInit env y = .ok (p, e)) :
    IlcdProps.normalInit env y.x = .ok (p.map UPr.pr, e) ∧ ∀ q, p = some q → uncOf y.unc q.pr.m = .ok q.unc := by
  unfold normalInit at h
  cases h0 : IlcdProps.normalInit env y.x with
  | error c => rw [h0] at h; cases h
  | ok r =>
    obtain ⟨p0, e0⟩ := r
    rw [h0] at h
    cases p0 with
    | none => injection h with h; injection h with h1 h2; subst h1; subst h2; exact ⟨rfl, by simp⟩
    | some p0 =>
      obtain ⟨u, hu, h⟩ := IlcdFlows.Except.bind_ok' (x := uncOf y.unc p0.m) h
      injection h with h; injection h with h1 h2; subst h1; subst h2
      refine ⟨rfl, ?_⟩
      rintro q ⟨⟩
      exact hu

theorem readProps_bare {env : Env ℝ} {ref : Str} : ∀ {file : List UFile} {d d' : List (Str × Option UPr)}
    {e e' : List Energy}, readProps env ref (d, e) file = .ok (d', e') →
    IlcdProps.readProps env ref (bare d, e) (file.map UFile.x) = .ok (bare d', e')
  | [], d, d', e, e', h => by injection h with h; injection h with h1 h2; subst h1; subst h2; rfl
  | y :: l, d, d', e, e', h => by
    simp only [readProps] at h
    simp only [List.map_cons, IlcdProps.readProps]
    by_cases hr : y.x.internalId = ref
    · rw [if_pos hr] at h ⊢
      exact readProps_bare h
    · rw [if_neg hr] at h ⊢
      obtain ⟨n, hn, h⟩ := IlcdFlows.Except.bind_ok' h
      obtain ⟨⟨p, es⟩, hp, h⟩ := IlcdFlows.Except.bind_ok' h
      obtain ⟨h0, -⟩ := normalInit_ok hp
      have := readProps_bare h
      rw [hn, h0]
      simp only [bare, aset_mapped] at this
      exact this

theorem convertible_bare (d : List (Str × Option UPr)) : IlcdProps.convertible (bare d) = plain (convertible d) := by
  induction d with
  | nil => rfl
  | cons e d ih =>
    obtain ⟨n, q⟩ := e
    simp only [IlcdProps.convertible, bare, plain, convertible] at ih
    cases q <;> simp [IlcdProps.convertible, bare, plain, convertible, ih]

theorem addMasses_plain (unit : Str) (d : List (Str × UPr)) :
    IlcdProps.addMasses unit (plain d) = plain (addMasses unit d) := by
  unfold IlcdProps.addMasses addMasses
  have := aget_mapped UPr.pr c!"water content" d
  unfold plain
  rw [this]
  cases aget c!"water content" d with
  | none => rfl
  | some w =>
    simp only [Option.map_some]
    split_ifs
    · rfl
    · rw [aset_mapped, aset_mapped, aset_mapped]
      rfl

theorem mapM_map_ok {α β γ : Type} (f : α → Py β) (g : β → γ) : ∀ {l : List α} {r : List β}, l.mapM f = .ok r →
    l.mapM (fun a => (f a).map g) = .ok (r.map g)
  | [], r, h => by
    simp only [List.mapM_nil, pure, Except.pure] at h
    injection h with h; subst h; rfl
  | a :: l, r, h => by
    rw [List.mapM_cons] at h
    obtain ⟨c, hc, h⟩ := IlcdFlows.Except.bind_ok' h
    obtain ⟨r', hr', h⟩ := IlcdFlows.Except.bind_ok' h
    simp only [pure, Except.pure] at h
    injection h with h; subst h
    rw [List.mapM_cons, hc, mapM_map_ok f g hr']
    rfl

theorem mapM_comp {α β γ : Type} (f : β → Py γ) (g : α → β) : ∀ l : List α,
    (l.map g).mapM f = l.mapM fun a => f (g a)
  | [] => rfl
  | a :: l => by rw [List.map_cons, List.mapM_cons, List.mapM_cons, mapM_comp f g l]

theorem convertProps_plain {unit : Str} {d : List (Str × UPr)} {outs : List Out} (h : convertProps unit d = .ok outs) :
    IlcdProps.convertProps unit (plain d) = .ok (outs.map Out.prop) := by
  unfold convertProps at h
  unfold IlcdProps.convertProps
  simp only at h ⊢
  have e : (aget c!"dry mass" (addMasses unit d)).map (·.pr.m) =
      (aget c!"dry mass" (IlcdProps.addMasses unit (plain d))).map (·.m) := by
    rw [addMasses_plain]
    have := aget_mapped UPr.pr c!"dry mass" (addMasses unit d)
    unfold plain
    rw [this, Option.map_map]
    rfl
  rw [← e, addMasses_plain]
  unfold plain
  rw [mapM_comp]
  have := mapM_map_ok _ Out.prop h
  rw [← this]
  congr 1
  funext e
  simp only
  cases IlcdProps.placeProp unit ((aget c!"dry mass" (addMasses unit d)).map (·.pr.m)) e.1 e.2.pr <;> rfl

/-! ### Name by name -/

/-- The last flow property with the name `n` besides the reference property. -/
def LastNamed (file : List UFile) (ref n : Str) (y : UFile) : Prop :=
  ∃ l r, file = l ++ y :: r ∧ y.x.internalId ≠ ref ∧ y.x.names = [n] ∧ ∀ z ∈ r, z.x.internalId ≠ ref → z.x.names ≠ [n]

theorem readProps_ok {env : Env ℝ} {ref : Str} : ∀ {file : List UFile} {d d' : List (Str × Option UPr)}
    {e e' : List Energy}, readProps env ref (d, e) file = .ok (d', e') →
    (∀ n, (∃ y p es, LastNamed file ref n y ∧ normalInit env y = .ok (p, es) ∧ aget n d' = some p) ∨
      ((∀ y ∈ file, y.x.internalId ≠ ref → y.x.names ≠ [n]) ∧ aget n d' = aget n d)) ∧
    ((d.map Prod.fst).Nodup → (d'.map Prod.fst).Nodup)
  | [], d, d', e, e', h => by
    simp only [readProps] at h
    injection h with h; injection h with h1 h2; subst h1 h2
    exact ⟨fun n => .inr ⟨by simp, rfl⟩, id⟩
  | x :: l, d, d', e, e', h => by
    simp only [readProps] at h
    by_cases hr : x.x.internalId = ref
    · rw [if_pos hr] at h
      obtain ⟨h1, h2⟩ := readProps_ok h
      refine ⟨fun n => ?_, h2⟩
      rcases h1 n with ⟨y, p, es, ⟨a, b, hab, hy⟩, hp, hg⟩ | ⟨hno, hg⟩
      · exact .inl ⟨y, p, es, ⟨x :: a, b, by simp [hab], hy⟩, hp, hg⟩
      · refine .inr ⟨?_, hg⟩
        intro y hy hyr
        rcases List.mem_cons.mp hy with rfl | hy
        · exact absurd hr hyr
        · exact hno y hy hyr
    · rw [if_neg hr] at h
      obtain ⟨m, hm, h⟩ := IlcdFlows.Except.bind_ok' h
      obtain ⟨⟨p, es⟩, hp, h⟩ := IlcdFlows.Except.bind_ok' h
      simp only at h
      have hm := IlcdProps.shortName_ok.mp hm
      obtain ⟨h1, h2⟩ := readProps_ok h
      refine ⟨fun n => ?_, fun hd => h2 (aset_nodup hd)⟩
      rcases h1 n with ⟨y, q, es', ⟨a, b, hab, hy⟩, hq, hg⟩ | ⟨hno, hg⟩
      · exact .inl ⟨y, q, es', ⟨x :: a, b, by simp [hab], hy⟩, hq, hg⟩
      · rw [aget_aset] at hg
        split_ifs at hg with hn
        · subst hn
          exact .inl ⟨x, p, es, ⟨[], l, rfl, hr, hm, hno⟩, hp, hg⟩
        · refine .inr ⟨?_, hg⟩
          intro y hy hyr
          rcases List.mem_cons.mp hy with rfl | hy
          · rw [hm]; intro c; exact hn (by simpa using c.symm)
          · exact hno y hy hyr

theorem lastNamed_unique {file : List UFile} {ref n : Str} {x y : UFile} (hx : LastNamed file ref n x)
    (hy : LastNamed file ref n y) : x = y := by
  obtain ⟨l, r, h, hxr, hxn, hxl⟩ := hx
  obtain ⟨l', r', h', hyr, hyn, hyl⟩ := hy
  rw [h] at h'
  rcases List.append_eq_append_iff.mp h' with ⟨a, ha, hb⟩ | ⟨a, ha, hb⟩
  · cases a with
    | nil => simp at hb; exact hb.1
    | cons z a =>
      simp only [List.cons_append, List.cons.injEq] at hb
      exact absurd hyn (hxl y (by rw [hb.2]; simp) hyr)
  · cases a with
    | nil => simp at hb; exact hb.1.symm
    | cons z a =>
      simp only [List.cons_append, List.cons.injEq] at hb
      exact absurd hxn (hyl x (by rw [hb.2]; simp) hxr)

theorem given_iff {env : Env ℝ} {file : List UFile} {ref n : Str} {fp : Ecs} {a : ℝ} {u : Option FUnc} :
    Spec.Given env file ref n fp a u ↔ ∃ y, LastNamed file ref n y ∧ aget y.x.id ilcdToEcsFp = some fp ∧
      env.flt y.x.value = .ok a ∧ y.unc = u := by
  constructor
  · rintro ⟨l, r, y, h1, h2, h3, h4, h5, h6, h7⟩
    exact ⟨y, ⟨l, r, h1, h2, h3, h4⟩, h5, h6, h7⟩
  · rintro ⟨y, ⟨l, r, h1, h2, h3, h4⟩, h5, h6, h7⟩
    exact ⟨l, r, y, h1, h2, h3, h4, h5, h6, h7⟩

/-- Without the uncertainty it is given as well. -/
theorem given_plain {env : Env ℝ} {file : List UFile} {ref n : Str} {fp : Ecs} {a : ℝ} {u : Option FUnc}
    (h : Spec.Given env file ref n fp a u) : IlcdProps.Spec.Given env (file.map UFile.x) ref n fp a := by
  obtain ⟨l, r, y, h1, h2, h3, h4, h5, h6, -⟩ := h
  refine ⟨y.x, ⟨l.map UFile.x, r.map UFile.x, by rw [h1]; simp, h2, h3, ?_⟩, h5, h6⟩
  intro z hz hzr
  obtain ⟨w, hw, rfl⟩ := List.mem_map.mp hz
  exact h4 w hw hzr

theorem given_of_plain {env : Env ℝ} {file : List UFile} {ref n : Str} {fp : Ecs} {a : ℝ}
    (h : IlcdProps.Spec.Given env (file.map UFile.x) ref n fp a) : ∃ u, Spec.Given env file ref n fp a u := by
  obtain ⟨x, ⟨l, r, h1, h2, h3, h4⟩, h5, h6⟩ := h
  obtain ⟨l', r', hf, rfl, hr⟩ := List.map_eq_append_iff.mp h1
  obtain ⟨y, r'', hr', rfl, rfl⟩ := List.map_eq_cons_iff.mp hr
  refine ⟨y.unc, l', r'', y, by rw [hf, hr'], h2, h3, ?_, h5, h6, rfl⟩
  intro z hz hzr
  exact h4 z.x (List.mem_map_of_mem hz) hzr

theorem mem_convertible {d : List (Str × Option UPr)} {n : Str} {p : UPr} :
    (n, p) ∈ convertible d ↔ (n, some p) ∈ d := by
  unfold convertible
  rw [List.mem_filterMap]
  constructor
  · rintro ⟨⟨m, q⟩, hq, he⟩
    cases q with
    | none => simp at he
    | some q => simp at he; obtain ⟨rfl, rfl⟩ := he; exact hq
  · intro h
    exact ⟨(n, some p), h, rfl⟩

/-- The property was read with the uncertainty `u`. -/
def ReadAs (n : Str) (fp : Ecs) (a : ℝ) (u : Option FUnc) (p : UPr) : Prop :=
  (∃ x, p.pr = asRead x n fp a) ∧ uncOf u a = .ok p.unc

theorem convertible_get {env : Env ℝ} {ref : Str} {file : List UFile} {d : List (Str × Option UPr)} {e : List Energy}
    (h : readProps env ref ([], []) file = .ok (d, e)) :
    ((convertible d).map Prod.fst).Nodup ∧
    (∀ n p, aget n (convertible d) = some p → ∃ fp a u, Spec.Given env file ref n fp a u ∧ ReadAs n fp a u p) ∧
    (∀ n fp a u, Spec.Given env file ref n fp a u → ∃ p, aget n (convertible d) = some p ∧ ReadAs n fp a u p) := by
  obtain ⟨h1, h2⟩ := readProps_ok h
  have hd := h2 (by simp)
  have hb : IlcdProps.convertible (bare d) = plain (convertible d) := convertible_bare d
  have hc : ((convertible d).map Prod.fst).Nodup := by
    have := IlcdProps.convertible_nodup (d := bare d) (by simpa [bare, Function.comp_def] using hd)
    rw [hb] at this
    simpa [plain, Function.comp_def] using this
  have key : ∀ n y p es, LastNamed file ref n y → normalInit env y = .ok (some p, es) →
      ∃ fp a, aget y.x.id ilcdToEcsFp = some fp ∧ env.flt y.x.value = .ok a ∧ ReadAs n fp a y.unc p := by
    intro n y p es hy hp
    obtain ⟨h3, h4⟩ := normalInit_ok hp
    obtain ⟨n', hn', -, ⟨_, hc⟩ | ⟨fp, a, hf, ha, hq⟩⟩ := IlcdProps.normalInit_ok h3
    · cases hc
    · injection hq with hq
      have hnn : n' = n := by
        obtain ⟨_, _, _, _, hxn, _⟩ := hy
        rw [hn'] at hxn; simpa using hxn
      subst hnn
      have h4 := h4 p rfl
      have hm : p.pr.m = a := by rw [hq]; rfl
      rw [hm] at h4
      exact ⟨fp, a, hf, ha, ⟨y.x, hq⟩, h4⟩
  refine ⟨hc, ?_, ?_⟩
  · intro n p hp
    have hm := aget_eq_of_mem hd (mem_convertible.mp (aget_mem hp))
    rcases h1 n with ⟨y, q, es, hy, hq, hg⟩ | ⟨hno, hg⟩
    · rw [hm] at hg; injection hg with hg; subst hg
      obtain ⟨fp, a, hf, ha, hr⟩ := key n y p es hy hq
      exact ⟨fp, a, y.unc, given_iff.mpr ⟨y, hy, hf, ha, rfl⟩, hr⟩
    · rw [hm] at hg; simp [aget] at hg
  · intro n fp a u hgv
    obtain ⟨x, hx, hf, ha, hu⟩ := given_iff.mp hgv
    rcases h1 n with ⟨y, q, es, hy, hq, hg⟩ | ⟨hno, hg⟩
    · cases lastNamed_unique hx hy
      cases q with
      | none =>
        obtain ⟨h3, -⟩ := normalInit_ok hq
        obtain ⟨n', hn', -, ⟨hc, _⟩ | ⟨fp', a', hf', ha', hq⟩⟩ := IlcdProps.normalInit_ok h3
        · rw [hf] at hc; cases hc
        · cases hq
      | some p =>
        obtain ⟨fp', a', hf', ha', hr⟩ := key n x p es hx hq
        rw [hf] at hf'; rw [ha] at ha'
        injection hf' with hf'; injection ha' with ha'; subst hf' ha' hu
        exact ⟨p, aget_eq_of_mem hc (mem_convertible.mpr (aget_mem hg)), hr⟩
    · obtain ⟨l, r, hlr, hxr, hxn, -⟩ := hx
      exact absurd hxn (hno x (by rw [hlr]; simp) hxr)

theorem addMasses_get {env : Env ℝ} {unit ref : Str} {file : List UFile} {d : List (Str × Option UPr)} {e : List Energy}
    (h : readProps env ref ([], []) file = .ok (d, e)) :
    ((addMasses unit (convertible d)).map Prod.fst).Nodup ∧
    ((∃ w, IlcdProps.Spec.Water env (file.map UFile.x) ref unit w ∧ ∀ k, aget k (addMasses unit (convertible d)) =
      if k = c!"water in wet mass" then some (massProp w c!"water in wet mass" IlcdProps.waterId)
      else if k = c!"dry mass" then some (massProp (1 - w) c!"dry mass" IlcdProps.dryId)
      else if k = c!"wet mass" then some (massProp 1 c!"wet mass" IlcdProps.wetId) else aget k (convertible d)) ∨
    ((∀ w, ¬ IlcdProps.Spec.Water env (file.map UFile.x) ref unit w) ∧
      ∀ k, aget k (addMasses unit (convertible d)) = aget k (convertible d))) := by
  obtain ⟨h1, h2, h3⟩ := convertible_get h
  unfold addMasses
  cases hw : aget c!"water content" (convertible d) with
  | none =>
    refine ⟨h1, .inr ⟨?_, fun _ => rfl⟩⟩
    rintro w ⟨-, fp, hg⟩
    obtain ⟨u, hg⟩ := given_of_plain hg
    obtain ⟨x, hx, -⟩ := h3 _ _ _ _ hg
    rw [hw] at hx; cases hx
  | some p =>
    obtain ⟨fp, a, u, hg, ⟨x, hx⟩, -⟩ := h2 _ _ hw
    have hm : p.pr.m = a := by rw [hx]; rfl
    simp only
    by_cases hu : unit = c!"m**3"
    · rw [if_pos hu]
      exact ⟨h1, .inr ⟨fun w c => c.1 hu, fun _ => rfl⟩⟩
    · rw [if_neg hu]
      refine ⟨aset_nodup (aset_nodup (aset_nodup h1)), .inl ⟨a, ⟨hu, fp, given_plain hg⟩, fun k => ?_⟩⟩
      rw [aget_aset, aget_aset, aget_aset, hm]

theorem dry_spec {env : Env ℝ} {unit ref : Str} {file : List UFile} {d : List (Str × Option UPr)} {e : List Energy}
    (h : readProps env ref ([], []) file = .ok (d, e)) : IlcdProps.Spec.Dry env (file.map UFile.x) ref unit
      ((aget c!"dry mass" (addMasses unit (convertible d))).map (·.pr.m)) := by
  obtain ⟨h1, h2, h3⟩ := convertible_get h
  obtain ⟨hnd, hall⟩ := addMasses_get (unit := unit) h
  rcases hall with ⟨w, hw, hg⟩ | ⟨hn, hg⟩
  · rw [hg, if_neg (by decide), if_pos rfl]
    exact .water hw
  · rw [hg]
    cases hq : aget c!"dry mass" (convertible d) with
    | none =>
      refine .unknown hn ?_
      intro fp a ha
      obtain ⟨u, ha⟩ := given_of_plain ha
      obtain ⟨x, hx, -⟩ := h3 _ _ _ _ ha
      rw [hq] at hx; cases hx
    | some p =>
      obtain ⟨fp, a, u, hx, ⟨x, hr⟩, -⟩ := h2 _ _ hq
      have hm : p.pr.m = a := by rw [hr]; rfl
      simp only [Option.map_some, hm]
      exact .given hn (given_plain hx)

end Verif.IlcdPropUnc
