/-
C73: the name under which the unit of an elementary exchange is looked up. C98: what a list in place of a section raises.
-/
import Verif.Props.IlcdFlows
import Verif.Props.PlaceIndex

namespace Verif.IlcdFlows
open Spec

/-- The second text is the first with an underscore in the place of every space. -/
def Spec.Joined (n u : Str) : Prop :=
  u.length = n.length ∧ ∀ k : Nat, u[k]? = if n[k]? = some ' ' then some '_' else n[k]?

theorem underscore_joined (n : Str) : Joined n (underscore n) := by
  refine ⟨by simp [underscore], fun k => ?_⟩
  simp only [underscore, List.getElem?_map]
  cases n[k]? with
  | none => simp
  | some c => by_cases h : c = ' ' <;> simp [h]

section
variable {K D : Type} [Field K] [DecidableEq K] [DecidableEq D]

omit [DecidableEq K] in
/-- C73, what holds: the unit whose identifier an elementary exchange gets has, under its name with underscores, the
dimension of the unit whose name is written. -/
theorem unit_name_joined_partial {env : Env K D} {xs : List (Exch K)} {s : St K}
    (h : convertAll env .empty xs = .ok s) :
    ∀ fl ∈ s.flows, fl.elem = true → ∃ d c c' p n u, env.unit fl.field.unitName = .ok (d, c) ∧
      (p, (fl.field.unitId, n)) ∈ env.units ∧ Joined n u ∧ env.unit u = .ok (d, c') := by
  intro fl hfl he
  obtain ⟨d, c, c', p, n, h1, h2, h3⟩ := unit_dimension_partial h fl hfl he
  exact ⟨d, c, c', p, n, _, h1, h2, underscore_joined n, h3⟩

example : Joined c!"m2 a" c!"m2_a" := underscore_joined c!"m2 a"

end

end Verif.IlcdFlows

namespace Verif.PlaceIndex

/-- C98. A list in the place of a section stops the conversion; the error is that of a wrong type exactly if the text
`@lang` is a member. -/
theorem list_stops (i : Int) (l : List PyVal) :
    (place i (.list l) = .error .typeError ↔ .str c!"@lang" ∈ l) ∧
      (place i (.list l) = .error .attributeError ↔ .str c!"@lang" ∉ l) := by
  have hl : l.any isLangStr = true ↔ .str c!"@lang" ∈ l := by
    rw [List.any_eq_true]
    constructor
    · rintro ⟨x, hx, h⟩
      cases x <;> simp_all [isLangStr]
    · intro h
      exact ⟨_, h, by simp [isLangStr]⟩
  have e : place i (.list l) = .error (if l.any isLangStr then .typeError else .attributeError) := rfl
  rw [e]
  by_cases h : l.any isLangStr = true
  · simp [h, hl.1 h]
  · have h' : .str c!"@lang" ∉ l := fun hc => h (hl.2 hc)
    simp [h, h']

example : place 0 (.list [.str c!"@lang"]) = .error .typeError := (list_stops 0 _).1.2 (by simp)

end Verif.PlaceIndex
