import Verif.Spec.XmlStream
import Verif.Lemmas.Assoc

namespace Verif.Xml
open Spec (select pathText Name WellNamed)

theorem beforeLast_append (p n : Str) (h : ∀ c ∈ n, c ≠ '/') : beforeLast '/' (p ++ '/' :: n) = p := by
  simp only [beforeLast, List.reverse_append, List.reverse_cons, List.append_assoc]
  have h1 : ∀ c ∈ n.reverse, (c != '/') = true := by
    intro c hc; simp; exact h c (by simpa using hc)
  rw [List.dropWhile_append_of_pos h1]
  simp

theorem noSlash_append {a b x y : Str} (ha : ∀ c ∈ a, c ≠ '/') (hb : ∀ c ∈ b, c ≠ '/')
    (h : a ++ '/' :: x = b ++ '/' :: y) : a = b ∧ x = y := by
  induction a generalizing b with
  | nil =>
    cases b with
    | nil => simpa using h
    | cons d b => simp at h; exact absurd h.1.symm (hb d (by simp))
  | cons c a ih =>
    cases b with
    | nil => simp at h; exact absurd h.1 (ha c (by simp))
    | cons d b =>
      simp only [List.cons_append, List.cons.injEq] at h
      obtain ⟨rfl, h⟩ := h
      obtain ⟨rfl, h2⟩ := ih (fun c hc => ha c (by simp [hc])) (fun c hc => hb c (by simp [hc])) h
      exact ⟨rfl, h2⟩

theorem noAt_append {a b x y : Str} (ha : '@' ∉ a) (hb : '@' ∉ b)
    (h : a ++ '@' :: x = b ++ '@' :: y) : a = b ∧ x = y := by
  induction a generalizing b with
  | nil =>
    cases b with
    | nil => simpa using h
    | cons d b => simp at h; simp [← h.1] at hb
  | cons c a ih =>
    cases b with
    | nil => simp at h; simp [h.1] at ha
    | cons d b =>
      simp only [List.cons_append, List.cons.injEq] at h
      obtain ⟨rfl, h⟩ := h
      simp only [List.mem_cons, not_or] at ha hb
      obtain ⟨rfl, h2⟩ := ih ha.2 hb.2 h
      exact ⟨rfl, h2⟩

mutual
/-- What the elements of a tree deliver, by recursion on the tree. -/
def visit (keys : List Str) (path : Str) : Elem → List (Str × PyVal)
  | .mk t a x c y =>
    visitOf keys (path ++ '/' :: localName t) c ++
      deliver keys (path ++ '/' :: localName t) (.mk t a x c y)
def visitOf (keys : List Str) (path : Str) : List Elem → List (Str × PyVal)
  | [] => []
  | e :: l => visit keys path e ++ visitOf keys path l
end

mutual
theorem stream_events (keys : List Str) (path : Str) (e : Elem) (he : WellNamed e) (r : List Event) :
    stream keys path (events e ++ r) = visit keys path e ++ stream keys path r := by
  match e, he with
  | .mk t a x c y, .mk _ _ _ _ _ hn _ _ hc =>
    simp only [events, visit, List.cons_append, stream, onEvent, List.append_assoc, List.nil_append]
    rw [stream_eventsOf keys _ c hc]
    simp only [Elem.tag, stream, onEvent]
    rw [beforeLast_append _ _ fun k hk => (hn.2 k hk).1]
theorem stream_eventsOf (keys : List Str) (path : Str) (l : List Elem) (hl : ∀ e ∈ l, WellNamed e)
    (r : List Event) :
    stream keys path (eventsOf l ++ r) = visitOf keys path l ++ stream keys path r := by
  match l with
  | [] => rfl
  | e :: l =>
    simp only [eventsOf, visitOf, List.append_assoc]
    rw [stream_events keys path e (hl e (by simp)), stream_eventsOf keys path l
      (fun e he => hl e (by simp [he]))]
end

theorem read_visit (keys : List Str) (doc : Elem) (h : WellNamed doc) :
    read keys doc = visit keys [] doc := by
  have := stream_events keys [] doc h []
  simpa [read, stream] using this

theorem visit_mem_keys (keys : List Str) (path : Str) (e : Elem) :
    ∀ p ∈ visit keys path e, p.1 ∈ keys := by
  have hd : ∀ (path : Str) (e : Elem), ∀ p ∈ deliver keys path e, p.1 ∈ keys := by
    intro path e p hp
    simp only [deliver, List.mem_append, List.mem_filterMap] at hp
    rcases hp with hp | ⟨a, _, hp⟩
    · split at hp
      · simp at hp; rw [hp]; assumption
      · simp at hp
    · split at hp
      · simp only [Option.some.injEq] at hp; rw [← hp]; assumption
      · simp at hp
  suffices h : ∀ (l : List Elem) (path : Str), ∀ p ∈ visitOf keys path l, p.1 ∈ keys by
    have := h [e] path
    simpa [visitOf] using this
  intro l
  induction l using Elem.rec_1 (motive_1 := fun e => ∀ path, ∀ p ∈ visit keys path e, p.1 ∈ keys) with
  | mk t a x c y ih =>
    rename_i path p hp
    simp only [visit, List.mem_append] at hp
    rcases hp with hp | hp
    · exact ih _ p hp
    · exact hd _ _ p hp
  | nil => intro path p hp; simp [visitOf] at hp
  | cons e l ih1 ih2 =>
    intro path p hp
    simp only [visitOf, List.mem_append] at hp
    rcases hp with hp | hp
    · exact ih1 _ p hp
    · exact ih2 _ p hp

/-- Every key delivered below `path` extends it. -/
theorem visit_prefix (keys : List Str) (l : List Elem) :
    ∀ (path : Str), ∀ p ∈ visitOf keys path l, ∃ r, p.1 = path ++ '/' :: r := by
  have hd : ∀ (path : Str) (e : Elem), ∀ p ∈ deliver keys path e, ∃ r, p.1 = path ++ r := by
    intro path e p hp
    simp only [deliver, List.mem_append, List.mem_filterMap] at hp
    rcases hp with hp | ⟨a, _, hp⟩
    · split at hp
      · simp at hp; exact ⟨[], by rw [hp]; simp⟩
      · simp at hp
    · split at hp
      · simp at hp; exact ⟨_, by rw [← hp]⟩
      · simp at hp
  induction l using Elem.rec_1 (motive_1 := fun e => ∀ path, ∀ p ∈ visit keys path e,
      ∃ r, p.1 = path ++ '/' :: localName e.tag ++ r) with
  | mk t a x c y ih =>
    rename_i path p hp
    simp only [visit, List.mem_append] at hp
    rcases hp with hp | hp
    · obtain ⟨r, hr⟩ := ih _ p hp
      exact ⟨'/' :: r, hr⟩
    · exact hd _ _ p hp
  | nil => intro path p hp; simp [visitOf] at hp
  | cons e l ih1 ih2 =>
    intro path p hp
    simp only [visitOf, List.mem_append] at hp
    rcases hp with hp | hp
    · obtain ⟨r, hr⟩ := ih1 _ p hp
      exact ⟨_, by rw [hr, List.append_assoc]; rfl⟩
    · exact ih2 _ p hp

theorem visit_prefix_one (keys : List Str) (e : Elem) (path : Str) :
    ∀ p ∈ visit keys path e, ∃ r, p.1 = path ++ '/' :: localName e.tag ++ r := by
  match e with
  | .mk t a x c y =>
    intro p hp
    simp only [visit, List.mem_append] at hp
    rcases hp with hp | hp
    · obtain ⟨r, hr⟩ := visit_prefix keys c _ p hp
      exact ⟨'/' :: r, hr⟩
    · simp only [deliver, List.mem_append, List.mem_filterMap] at hp
      rcases hp with hp | ⟨a, _, hp⟩
      · split at hp
        · simp at hp; exact ⟨[], by rw [hp]; simp [Elem.tag]⟩
        · simp at hp
      · split at hp
        · simp only [Option.some.injEq] at hp; exact ⟨c!"/@" ++ a.1, by rw [← hp]; simp [Elem.tag]⟩
        · simp at hp

/-- The values delivered under a key. -/
def under (k : Str) (l : List (Str × PyVal)) : List PyVal :=
  (l.filter fun p => decide (p.1 = k)).map Prod.snd

theorem under_append (k : Str) (l m : List (Str × PyVal)) :
    under k (l ++ m) = under k l ++ under k m := by simp [under]

theorem under_nil (k : Str) (l : List (Str × PyVal)) (h : ∀ p ∈ l, p.1 ≠ k) : under k l = [] := by
  simp [under, List.filter_eq_nil_iff]
  intro a b hab; exact h (a, b) hab

theorem noAt_path {ns : List Str} (h : ∀ n ∈ ns, Name n) : '@' ∉ pathText ns := by
  induction ns with
  | nil => simp [pathText]
  | cons n ns ih =>
    simp only [pathText, List.cons_append, List.mem_cons, List.mem_append, not_or]
    refine ⟨by decide, fun hc => ((h n (by simp)).2 '@' hc).2.1 rfl, ih fun m hm => h m (by simp [hm])⟩

theorem name_noSlash {n : Str} (h : Name n) : ∀ c ∈ n, c ≠ '/' := fun c hc => (h.2 c hc).1
theorem name_noAt {n : Str} (h : Name n) : '@' ∉ n := fun hc => (h.2 '@' hc).2.1 rfl

/-- What one element delivers itself: its value, or the attribute `a`. -/
def own : Option Str → Elem → List PyVal
  | none, e => [elem2dict e]
  | some a, e => (e.attrs.filter fun p => decide (p.1 = a)).map fun p => .str p.2

def attrPart : Option Str → Str
  | none => []
  | some a => c!"/@" ++ a

theorem under_deliver (keys : List Str) (q : Str) (e : Elem) (t : Option Str) :
    under (q ++ attrPart t) (deliver keys q e) = if q ++ attrPart t ∈ keys then own t e else [] := by
  simp only [deliver, under_append]
  cases t with
  | none =>
    simp only [attrPart, List.append_nil, own]
    rw [under_nil _ (List.filterMap _ _)]
    · split <;> simp_all [under]
    · intro p hp
      simp only [List.mem_filterMap] at hp
      obtain ⟨a, _, hp⟩ := hp
      split at hp
      · simp at hp; rw [← hp]; simp
      · simp at hp
  | some a =>
    rw [under_nil _ (if q ∈ keys then _ else _)]
    · simp only [List.nil_append, attrPart, own]
      induction e.attrs with
      | nil => simp [under]
      | cons b l ih =>
        simp only [List.filterMap_cons, List.filter_cons]
        by_cases hb : b.1 = a
        · subst hb
          split
          · rename_i h1; simp only [List.append_assoc] at h1 ih ⊢; split at h1
            · cases h1
            · simp_all
          · rename_i h1
            simp only [List.append_assoc] at h1 ih ⊢
            split at h1
            · cases h1
              simp [under] at ih ⊢
              simp_all
            · cases h1
        · have hne : ∀ (v : Str × PyVal), v = (q ++ c!"/@" ++ b.1, PyVal.str b.2) →
              v.1 ≠ q ++ (c!"/@" ++ a) := by
            rintro _ rfl h; simp at h; exact hb h
          split
          · simp only [hb, decide_false, Bool.false_eq_true, ite_false]; exact ih
          · rename_i h1
            split at h1
            · simp only [Option.some.injEq] at h1
              have := hne _ h1.symm
              simp only [under, List.filter_cons, this, decide_false, Bool.false_eq_true, ite_false] at ih ⊢
              simp only [hb, decide_false, Bool.false_eq_true, ite_false]; exact ih
            · cases h1
    · intro p hp
      split at hp
      · simp at hp; rw [hp]
        intro h
        simp [attrPart] at h
      · simp at hp

theorem select_cons (n : Str) (ns : List Str) (hns : ns ≠ []) (e : Elem) :
    select (n :: ns) [e] = if localName e.tag = n then select ns e.children else [] := by
  cases ns with
  | nil => simp at hns
  | cons m ns =>
    simp only [select, List.filter_cons, List.filter_nil]
    split <;> simp_all

theorem select_append (ns : List Str) (l m : List Elem) :
    select ns (l ++ m) = select ns l ++ select ns m := by
  match ns with
  | [] => simp [select]
  | [n] => simp [select]
  | n :: k :: ns => simp [select]

theorem pathText_ne {ns : List Str} (h : ns ≠ []) : ∃ r, pathText ns = '/' :: r := by
  cases ns with
  | nil => simp at h
  | cons n ns => exact ⟨_, rfl⟩

mutual
theorem under_visit (keys : List Str) (t : Option Str) (e : Elem) (he : WellNamed e) (p : Str)
    (hp : '@' ∉ p) (n : Str) (ns : List Str) (hn : ∀ m ∈ n :: ns, Name m) :
    under (p ++ pathText (n :: ns) ++ attrPart t) (visit keys p e) =
      if p ++ pathText (n :: ns) ++ attrPart t ∈ keys then (select (n :: ns) [e]).flatMap (own t)
      else [] := by
  match e, he with
  | .mk tag a x c y, .mk _ _ _ _ _ hname _ _ hc =>
    have hn1 : Name n := hn n (by simp)
    have hat : '@' ∉ p ++ '/' :: localName tag := by
      simp only [List.mem_append, List.mem_cons, not_or]
      exact ⟨hp, by decide, name_noAt hname⟩
    by_cases hnm : localName tag = n
    · subst hnm
      cases ns with
      | nil =>
        simp only [visit, under_append]
        have hK : p ++ pathText [localName tag] ++ attrPart t = (p ++ '/' :: localName tag) ++ attrPart t := by
          simp [pathText]
        rw [hK, under_deliver keys _ _ t, under_nil]
        · simp [select, Elem.tag]
        · intro q hq h
          cases t with
          | none =>
            obtain ⟨r, hr⟩ := visit_prefix keys c _ q hq
            rw [hr] at h; simp [attrPart] at h
          | some b =>
            exact (visit_noAt keys c hc _ hat q hq b) h
      | cons m ns =>
        simp only [visit, under_append]
        have hK : p ++ pathText (localName tag :: m :: ns) ++ attrPart t =
            (p ++ '/' :: localName tag) ++ pathText (m :: ns) ++ attrPart t := by
          simp [pathText]
        rw [hK, under_visitOf keys t c hc _ hat m ns (fun k hk => hn k (by simp [hk])),
          select_cons _ _ (by simp), under_nil _ (deliver _ _ _)]
        · simp [Elem.tag, Elem.children]
        · intro q hq h
          have hnot : '@' ∉ pathText (m :: ns) := noAt_path fun k hk => hn k (by simp [hk])
          simp only [deliver, List.mem_append, List.mem_filterMap] at hq
          rcases hq with hq | ⟨b, _, hq⟩
          · split at hq
            · simp at hq
              rw [hq] at h
              have := congrArg List.length h
              simp [pathText] at this
            · simp at hq
          · split at hq
            · simp only [Option.some.injEq] at hq
              rw [← hq] at h
              simp only [List.append_assoc, List.append_cancel_left_eq] at h
              cases t with
              | none =>
                simp only [attrPart, List.append_nil] at h
                rw [← h] at hnot
                simp at hnot
              | some d =>
                simp only [attrPart] at h
                have h' : c!"/" ++ '@' :: b.1 = (pathText (m :: ns) ++ c!"/") ++ '@' :: d := by
                  simpa using h
                obtain ⟨h1, _⟩ := noAt_append (by decide) (by
                  simp only [List.mem_append, not_or]; exact ⟨hnot, by decide⟩) h'
                have := congrArg List.length h1
                simp [pathText] at this
            · cases hq
    · rw [under_nil]
      · have : select (n :: ns) [Elem.mk tag a x c y] = [] := by
          cases ns <;> simp [select, Elem.tag, hnm]
        rw [this]; simp
      · intro q hq h
        obtain ⟨r, hr⟩ := visit_prefix_one keys _ p q hq
        rw [hr] at h
        simp only [pathText, List.append_assoc, List.append_cancel_left_eq, List.cons_append,
          List.cons.injEq, true_and, Elem.tag] at h
        -- both sides have no slash in their first name
        have hr' : ∃ s, q.1 = p ++ '/' :: localName tag ++ s ∧ (s = [] ∨ ∃ u, s = '/' :: u) := by
          simp only [visit, List.mem_append] at hq
          rcases hq with hq | hq
          · obtain ⟨u, hu⟩ := visit_prefix keys c _ q hq
            exact ⟨'/' :: u, hu, .inr ⟨_, rfl⟩⟩
          · simp only [deliver, List.mem_append, List.mem_filterMap] at hq
            rcases hq with hq | ⟨b, _, hq⟩
            · split at hq
              · simp at hq; exact ⟨[], by rw [hq]; simp, .inl rfl⟩
              · simp at hq
            · split at hq
              · simp only [Option.some.injEq] at hq; rw [← hq]
                exact ⟨c!"/@" ++ b.1, by simp, .inr ⟨_, rfl⟩⟩
              · cases hq
        obtain ⟨s, hs, hs'⟩ := hr'
        have hrs : r = s := by
          rw [hr] at hs
          simpa [Elem.tag] using hs
        subst hrs
        have key : ∀ (a b : Str), (∀ c ∈ a, c ≠ '/') → (∀ c ∈ b, c ≠ '/') →
            ∀ (u v : Str), (u = [] ∨ ∃ w, u = '/' :: w) → (v = [] ∨ ∃ w, v = '/' :: w) →
            a ++ u = b ++ v → a = b := by
          intro a b ha hb u v hu hv h
          have hh : a ++ u ++ c!"/" = b ++ v ++ c!"/" := by rw [h]
          rcases hu with rfl | ⟨w, rfl⟩ <;> rcases hv with rfl | ⟨w', rfl⟩
          · simpa using h
          · have := noSlash_append (a := a) (b := b) (x := []) (y := w' ++ c!"/") ha hb (by simpa using hh)
            exact this.1
          · have := noSlash_append (a := a) (b := b) (x := w ++ c!"/") (y := []) ha hb (by simpa using hh)
            exact this.1
          · exact (noSlash_append ha hb h).1
        apply hnm
        refine key _ _ (name_noSlash hname) (name_noSlash hn1) r (pathText ns ++ attrPart t) hs' ?_ h
        cases ns with
        | nil =>
          cases t with
          | none => exact .inl rfl
          | some b => exact .inr ⟨_, rfl⟩
        | cons m ns => exact .inr ⟨_, rfl⟩
theorem under_visitOf (keys : List Str) (t : Option Str) (l : List Elem) (hl : ∀ e ∈ l, WellNamed e)
    (p : Str) (hp : '@' ∉ p) (n : Str) (ns : List Str) (hn : ∀ m ∈ n :: ns, Name m) :
    under (p ++ pathText (n :: ns) ++ attrPart t) (visitOf keys p l) =
      if p ++ pathText (n :: ns) ++ attrPart t ∈ keys then (select (n :: ns) l).flatMap (own t)
      else [] := by
  match l with
  | [] => cases ns <;> simp [visitOf, under, select]
  | e :: l =>
    have h1 := under_visit keys t e (hl e (by simp)) p hp n ns hn
    have h2 := under_visitOf keys t l (fun e he => hl e (by simp [he])) p hp n ns hn
    have : select (n :: ns) (e :: l) = select (n :: ns) [e] ++ select (n :: ns) l := by
      rw [← select_append]; rfl
    rw [visitOf, under_append, h1, h2, this, List.flatMap_append]
    split <;> simp
theorem visit_noAt (keys : List Str) (l : List Elem) (hl : ∀ e ∈ l, WellNamed e)
    (q : Str) (hq : '@' ∉ q) : ∀ v ∈ visitOf keys q l, ∀ b, v.1 ≠ q ++ attrPart (some b) := by
  match l with
  | [] => simp [visitOf]
  | .mk tag a x c y :: l =>
    intro v hv b h
    simp only [visitOf, List.mem_append] at hv
    rcases hv with hv | hv
    · obtain ⟨r, hr⟩ := visit_prefix_one keys _ q v hv
      rw [hr] at h
      cases hl _ (List.mem_cons_self ..) with
      | mk _ _ _ _ _ hname _ _ hc =>
        simp only [attrPart, List.append_assoc, List.append_cancel_left_eq, List.cons_append,
          List.cons.injEq, true_and, Elem.tag] at h
        cases hlt : localName tag with
        | nil => exact hname.1 hlt
        | cons c' cs =>
          rw [hlt] at h
          simp at h
          have := hname.2 c' (by rw [hlt]; simp)
          exact this.2.1 h.1
    · exact visit_noAt keys l (fun e he => hl e (by simp [he])) q hq v hv b h
end

end Verif.Xml
