/-
What a failed conversion does to the conversions after it, and which error is reported.
-/
import Verif.Lemmas.Session

namespace Verif.Session

/-! ## EcoSpold2 to ILCD -/

theorem construct_var : ∀ l, (∀ f ∈ l, f.broken = none) → (construct l).2 = none
  | [], _ => rfl
  | f :: l, h => by
    unfold construct
    rw [h f List.mem_cons_self]
    exact construct_var l fun g hg => h g (List.mem_cons_of_mem _ hg)

theorem construct_broken : ∀ l, (∃ f ∈ l, f.broken ≠ none) → (construct l).2 ≠ none
  | [], ⟨f, hf, _⟩ => by simp at hf
  | f :: l, ⟨g, hg, hb⟩ => by
    unfold construct
    cases hf : f.broken with
    | some e => simp
    | none =>
      rcases List.mem_cons.1 hg with rfl | hg
      · exact absurd hf hb
      · exact construct_broken l ⟨g, hg, hb⟩

theorem construct_mem : ∀ l, ∀ f ∈ (construct l).1, ∃ g ∈ l, f = g ∨ f = { g with var := g.var || g.named }
  | [], f, hf => by simp [construct] at hf
  | g :: l, f, hf => by
    unfold construct at hf
    cases hb : g.broken with
    | some e =>
      rw [hb] at hf
      exact ⟨f, hf, .inl rfl⟩
    | none =>
      rw [hb] at hf
      rcases List.mem_cons.1 hf with rfl | hf
      · exact ⟨g, List.mem_cons_self, .inr (by rw [hb])⟩
      · obtain ⟨x, hx, h⟩ := construct_mem l f hf
        exact ⟨x, List.mem_cons_of_mem _ hx, h⟩

theorem construct_all : ∀ l, (construct l).2 = none →
    (construct l).1 = l.map fun f => { f with var := f.var || f.named }
  | [], _ => rfl
  | f :: l, h => by
    unfold construct at h ⊢
    cases hb : f.broken with
    | some e => rw [hb] at h; simp at h
    | none =>
      rw [hb] at h
      simp only [List.map_cons, construct_all l h, hb]

/-- With the options taken back, a list is treated without error unless an exchange refers to its variable. -/
theorem finish_off_ok (l : List Flow) (h : ∀ f ∈ l, f.var = true → f.refVar = false) :
    finish ⟨false, false⟩ l = ([], none) := by
  have hs := setVars_none [] l fun f hf hv hr => by rw [h f hf hv] at hr; simp at hr
  simp [finish, pass, hs]

theorem delete_ok (l : List Flow) (h : ∀ f ∈ l, f.var = true → f.refVar = false) : delete l = ([], none) := by
  unfold delete
  rw [finish_off_ok l h]
  exact finish_off_ok [] (by simp)

theorem delete_stuck (l : List Flow) (h : ∃ f ∈ l, f.var = true ∧ f.refVar = true) :
    delete l = ((setVars [] l).1, some .valueError) := by
  obtain ⟨f, hf, hv, hr⟩ := h
  have hs := setVars_some [] l ⟨f, hf, hv, hr, by simp⟩
  simp [delete, finish, pass, hs]

/-- A formula that cannot be made into a variable is met before any exchange refers to its variable. -/
theorem pass_bad (o : Opts) (l : List Flow) (hl : ∀ f ∈ l, Fresh f) (hb : ¬ FormulasGood o l) :
    (pass o l).2 ≠ none ∧ ∀ f ∈ (pass o l).1, f.refVar = false := by
  simp only [FormulasGood, Classical.not_imp, not_forall] at hb
  obtain ⟨hp, g, hg, hb⟩ := hb
  have hn := construct_broken l ⟨g, hg, hb⟩
  obtain ⟨e, he⟩ := Option.ne_none_iff_exists'.1 hn
  have hpass : pass o l = ((construct l).1, some e) := by simp [pass, hp, he]
  rw [hpass]
  refine ⟨by simp, fun f hf => ?_⟩
  obtain ⟨x, hx, rfl | rfl⟩ := construct_mem l f hf
  · exact (hl f hx).2
  · exact (hl x hx).2

/-- The list as the second step finds it. -/
def made (o : Opts) (l : List Flow) : List Flow :=
  if o.param then l.map fun f => { f with var := f.var || f.named } else l

theorem made_core (o : Opts) (l : List Flow) : (made o l).map core = l.map core := by
  unfold made
  split_ifs
  · rw [List.map_map]
    rfl
  · rfl

theorem made_refVar (o : Opts) (l : List Flow) (hl : ∀ f ∈ l, Fresh f) : ∀ f ∈ made o l, f.refVar = false := by
  intro f hf
  unfold made at hf
  split_ifs at hf
  · obtain ⟨g, hg, rfl⟩ := List.mem_map.1 hf
    exact (hl g hg).2
  · exact (hl f hf).2

theorem pass_good (o : Opts) (l : List Flow) (hl : ∀ f ∈ l, Fresh f) (hb : FormulasGood o l) :
    pass o l = ((setVars (if o.sum then doubled l else []) (made o l)).1,
      if o.sum then sumAll (setVars (doubled l) (made o l)).1 (doubled l) else none) := by
  have h1 : (if o.param then construct l else (l, none)) = (made o l, none) := by
    unfold made
    by_cases hp : o.param = true
    · rw [if_pos hp, if_pos hp]
      have hc := construct_var l (hb hp)
      rw [← construct_all l hc, ← hc]
    · rw [if_neg hp, if_neg hp]
  have h2 : doubled (made o l) = doubled l := doubled_core _ _ (made_core o l)
  have h3 : ∀ skip, (setVars skip (made o l)).2 = none := fun skip =>
    setVars_none skip _ fun f hf _ hr => by rw [made_refVar o l hl f hf] at hr; simp at hr
  simp only [pass, h1, h2, h3]
  cases o.sum <;> simp

theorem pass_good_err (o : Opts) (l : List Flow) (hl : ∀ f ∈ l, Fresh f) (hb : FormulasGood o l) :
    (pass o l).2 ≠ none ↔ o.sum = true ∧ SumStops l := by
  rw [pass_good o l hl hb]
  cases ho : o.sum with
  | false => simp
  | true =>
    simp only [if_true, true_and]
    have hc : (setVars (doubled l) (made o l)).1.map core = l.map core := by rw [setVars_core, made_core]
    have hd : doubled l = doubled (setVars (doubled l) (made o l)).1 := (doubled_core _ _ hc).symm
    have key := sumStops_iff (setVars (doubled l) (made o l)).1
    rw [← hd] at key
    rw [key]
    exact ⟨sumStops_core _ _ hc, sumStops_core _ _ hc.symm⟩

theorem pass_good_stuck (o : Opts) (l : List Flow) (hl : ∀ f ∈ l, Fresh f) (hb : FormulasGood o l) :
    (∃ f ∈ (pass o l).1, f.var = true ∧ f.refVar = true) ↔
      o.param = true ∧ ∃ g ∈ l, g.named = true ∧ (o.sum = true → ¬ Shares l g.key) := by
  rw [pass_good o l hl hb]
  have hk : ∀ k, k ∉ (if o.sum then doubled l else []) ↔ (o.sum = true → ¬ Shares l k) := by
    intro k
    cases o.sum <;> simp [mem_doubled]
  simp only [← hk]
  constructor
  · rintro ⟨f, hf, hv, hr⟩
    rcases setVars_only _ _ f hf with h | ⟨g, hg, rfl, hgv, hs⟩
    · rw [made_refVar o l hl f h] at hr
      simp at hr
    · unfold made at hg
      by_cases hp : o.param = true
      · rw [if_pos hp] at hg
        obtain ⟨x, hx, rfl⟩ := List.mem_map.1 hg
        refine ⟨hp, x, hx, ?_, hs⟩
        simpa [(hl x hx).1] using hgv
      · rw [if_neg hp] at hg
        rw [(hl g hg).1] at hgv
        simp at hgv
  · rintro ⟨hp, g, hg, hn, hs⟩
    have hm : { g with var := true } ∈ made o l := by
      unfold made
      rw [if_pos hp]
      exact List.mem_map.2 ⟨g, hg, by simp [hn]⟩
    exact ⟨_, setVars_sets _ _ (setVars_none _ _ fun f hf _ hr => by
      rw [made_refVar o l hl f hf] at hr; simp at hr) _ hm rfl hs, rfl, rfl⟩

theorem finish_ok (o : Opts) (l l' : List Flow) (h : finish o l = (l', none)) : l' = [] := by
  unfold finish at h
  split at h
  · simp at h
  · exact (Prod.mk.injEq .. ▸ h).1.symm

theorem oneFile_ok (o : Opts) (l l' : List Flow) (f : File) (h : oneFile o l f = (l', none)) : l' = [] := by
  unfold oneFile at h
  split at h
  · simp at h
  · split at h
    · simp at h
    · next h' =>
      simp only [Prod.mk.injEq] at h
      rw [← h.1]
      exact finish_ok o _ _ h'

/-- A conversion without error leaves nothing behind, whatever was there before it. -/
theorem success_clean (o : Opts) : ∀ (fs : List File) (l : List Flow), (convert o l fs).2 = none → fs ≠ [] →
    (convert o l fs).1 = []
  | [], _, _, h => absurd rfl h
  | f :: fs, l, h, _ => by
    unfold convert at h ⊢
    rcases ho : oneFile o l f with ⟨l', _ | e⟩
    · rw [ho] at h
      simp only at h ⊢
      have hl := oneFile_ok o l l' f ho
      subst hl
      cases fs with
      | nil => rfl
      | cons g fs => exact success_clean o (g :: fs) [] h (by simp)
    · rw [ho] at h
      simp at h

/-- The error of a file on its own, before the mapping is deleted. -/
def fileError (o : Opts) (f : File) : Option PyErr := (oneFile o [] f).2

/-- A file that fails leaves the exchanges behind and hides its error exactly if it disturbs. -/
theorem file_fails (o : Opts) (f : File) (hf : ∀ g ∈ f.flows, Fresh g) :
    (Disturbs o f → (delete (oneFile o [] f).1).2 = some .valueError ∧
      ∃ g ∈ (delete (oneFile o [] f).1).1, g.var = true ∧ g.refVar = true) ∧
    (¬ Disturbs o f → delete (oneFile o [] f).1 = ([], none)) := by
  constructor
  · rintro ⟨h1, h2, h3, h4, h5, g, hg, h6, h7⟩
    have herr := (pass_good_err o f.flows hf h2).2 ⟨h3, h4⟩
    obtain ⟨e', he'⟩ := Option.ne_none_iff_exists'.1 herr
    obtain ⟨x, hx, hv, hr⟩ := (pass_good_stuck o f.flows hf h2).2 ⟨h5, g, hg, h6, fun _ => h7⟩
    have h8 : (oneFile o [] f).1 = (pass o f.flows).1 := by
      have : pass o f.flows = ((pass o f.flows).1, some e') := by rw [← he']
      simp only [oneFile, h1, List.nil_append, finish]
      rw [this]
    rw [h8, delete_stuck _ ⟨x, hx, hv, hr⟩]
    exact ⟨rfl, x, setVars_keeps _ x hr _ hx, hv, hr⟩
  · intro hd
    apply delete_ok
    intro g hg hv
    by_contra hr
    rw [Bool.not_eq_false] at hr
    cases h1 : f.fails with
    | some e' =>
      have : (oneFile o [] f).1 = f.flows := by simp [oneFile, h1]
      rw [this] at hg
      rw [(hf g hg).2] at hr
      simp at hr
    | none =>
      have hq : (pass o f.flows).2 ≠ none ∧ (oneFile o [] f).1 = (pass o f.flows).1 ∨
          (oneFile o [] f).1 = [] := by
        rcases hp : pass o f.flows with ⟨l', _ | e'⟩
        · right; simp [oneFile, h1, finish, hp]
        · left; simp [oneFile, h1, finish, hp]
      rcases hq with ⟨hq, h2⟩ | h2
      · rw [h2] at hg
        by_cases hb : FormulasGood o f.flows
        · obtain ⟨h3, h4⟩ := (pass_good_err o f.flows hf hb).1 hq
          obtain ⟨h5, x, hx, h6, h7⟩ := (pass_good_stuck o f.flows hf hb).1 ⟨g, hg, hv, hr⟩
          exact hd ⟨h1, hb, h3, h4, h5, x, hx, h6, h7 h3⟩
        · rw [(pass_bad o f.flows hf hb).2 g hg] at hr
          simp at hr
      · rw [h2] at hg
        simp at hg

/-- A file that disturbs fails. -/
theorem disturbs_fails (o : Opts) (f : File) (hf : ∀ g ∈ f.flows, Fresh g) (hd : Disturbs o f) :
    fileError o f ≠ none := by
  obtain ⟨h1, h2, h3, h4, -⟩ := hd
  have herr := (pass_good_err o f.flows hf h2).2 ⟨h3, h4⟩
  obtain ⟨e', he'⟩ := Option.ne_none_iff_exists'.1 herr
  have : pass o f.flows = ((pass o f.flows).1, some e') := by rw [← he']
  simp only [fileError, oneFile, h1, List.nil_append, finish]
  rw [this]
  simp

/-- When a file is converted, exactly. -/
theorem file_error_iff (o : Opts) (f : File) (hf : ∀ g ∈ f.flows, Fresh g) : fileError o f = none ↔
    f.fails = none ∧ FormulasGood o f.flows ∧ ¬ (o.sum = true ∧ SumStops f.flows) ∧ f.unwritable = none := by
  unfold fileError oneFile
  cases h1 : f.fails with
  | some e => simp
  | none =>
    simp only [List.nil_append, true_and]
    by_cases hb : FormulasGood o f.flows
    · have h2 := pass_good_err o f.flows hf hb
      rcases hp : pass o f.flows with ⟨l', _ | e⟩
      · rw [hp] at h2
        simp only [ne_eq, not_true_eq_false, false_iff] at h2
        simp [finish, hp, hb, h2]
      · rw [hp] at h2
        have := h2.1 (by simp)
        simp [finish, hp, this]
    · obtain ⟨h2, -⟩ := pass_bad o f.flows hf hb
      rcases hp : pass o f.flows with ⟨l', _ | e⟩
      · rw [hp] at h2; simp at h2
      · simp [finish, hp, hb]

/-- The error of a file that cannot be read, and of a data set that cannot be written. -/
theorem file_error (o : Opts) (f : File) (hf : ∀ g ∈ f.flows, Fresh g) (e : PyErr) :
    (f.fails = some e → fileError o f = some e) ∧
    (f.fails = none → FormulasGood o f.flows → ¬ (o.sum = true ∧ SumStops f.flows) → f.unwritable = some e →
      fileError o f = some e) := by
  constructor
  · intro h
    simp [fileError, oneFile, h]
  · intro h1 h2 h3 h4
    have h5 := mt (pass_good_err o f.flows hf h2).1 h3
    rcases hp : pass o f.flows with ⟨l', _ | e'⟩
    · simp [fileError, oneFile, h1, finish, hp, h4]
    · rw [hp] at h5; simp at h5

/-- All exchanges of a conversion are as they are read. -/
def FreshFiles (fs : List File) : Prop := ∀ f ∈ fs, ∀ g ∈ f.flows, Fresh g

theorem convert_append (o : Opts) : ∀ (pre : List File) (l : List Flow) (post : List File),
    (convert o l pre).2 = none → convert o l (pre ++ post) = convert o (convert o l pre).1 post
  | [], _, _, _ => rfl
  | f :: pre, l, post, h => by
    simp only [List.cons_append, convert] at h ⊢
    rcases ho : oneFile o l f with ⟨l', _ | e⟩
    · rw [ho] at h
      exact convert_append o pre l' post h
    · rw [ho] at h
      simp at h

/-- A conversion in a clean process: either all files are converted and nothing is left; or one fails after others
without error, and then, unless it disturbs, its own error is reported and nothing is left. -/
theorem convert_cases (o : Opts) : ∀ (fs : List File), FreshFiles fs →
    (convert o [] fs = ([], none) ∧ ∀ f ∈ fs, fileError o f = none) ∨
    ∃ pre f post e, fs = pre ++ f :: post ∧ (convert o [] pre).2 = none ∧ fileError o f = some e ∧
      ((¬ Disturbs o f ∧ convert o [] fs = ([], some e)) ∨
        (Disturbs o f ∧ (convert o [] fs).2 = some .valueError ∧
          ∃ g ∈ (convert o [] fs).1, g.var = true ∧ g.refVar = true))
  | [], _ => .inl ⟨rfl, by simp⟩
  | f :: fs, h => by
    have hf := h f List.mem_cons_self
    rcases ho : oneFile o [] f with ⟨l', _ | e⟩
    · have hl := oneFile_ok o [] l' f ho
      subst hl
      have hc : ∀ x, convert o [] (f :: x) = convert o [] x := fun x => by simp only [convert, ho]
      rcases convert_cases o fs fun g hg => h g (List.mem_cons_of_mem _ hg) with ⟨h1, h2⟩ | ⟨pre, g, post, e, h1, h2, h3⟩
      · left
        rw [hc]
        refine ⟨h1, fun x hx => ?_⟩
        rcases List.mem_cons.1 hx with rfl | hx
        · simp [fileError, ho]
        · exact h2 x hx
      · right
        refine ⟨f :: pre, g, post, e, by rw [h1]; rfl, by rw [hc]; exact h2, ?_⟩
        rw [hc]
        exact h3
    · right
      obtain ⟨h1, h2⟩ := file_fails o f hf
      rw [ho] at h1 h2
      refine ⟨[], f, fs, e, rfl, rfl, by simp [fileError, ho], ?_⟩
      simp only [convert, ho]
      by_cases hd : Disturbs o f
      · right
        obtain ⟨h3, h4⟩ := h1 hd
        exact ⟨hd, by rw [h3]; rfl, h4⟩
      · left
        rw [h2 hd]
        exact ⟨hd, rfl⟩

/-- The process stays clean exactly if the conversion does not disturb. -/
theorem clean_iff (r : Opts × List File) (h : FreshFiles r.2) :
    (convert r.1 [] r.2).1 = [] ↔ ¬ RunDisturbs r := by
  constructor
  · rintro hc ⟨pre, f, post, h1, h2, h3⟩
    have hpre : (convert r.1 [] pre).1 = [] := by
      cases pre with
      | nil => rfl
      | cons g pre => exact success_clean _ _ _ h2 (by simp)
    rw [h1, convert_append _ _ _ _ h2, hpre] at hc
    have hf : ∀ g ∈ f.flows, Fresh g := h f (by rw [h1]; simp)
    obtain ⟨e, he⟩ := Option.ne_none_iff_exists'.1 (disturbs_fails r.1 f hf h3)
    obtain ⟨-, g, hg, -⟩ := (file_fails r.1 f hf).1 h3
    have ho : oneFile r.1 [] f = ((oneFile r.1 [] f).1, some e) := by
      rw [← he]; rfl
    rw [convert, ho] at hc
    simp only at hc
    rw [hc] at hg
    simp at hg
  · intro hn
    rcases convert_cases r.1 r.2 h with ⟨h1, -⟩ | ⟨pre, f, post, e, h1, h2, h3, ⟨-, h4⟩ | ⟨hd, -⟩⟩
    · rw [h1]
    · rw [h4]
    · exact absurd ⟨pre, f, post, h1, h2, hd⟩ hn

/-- Nothing disturbs without both options. -/
theorem options_off (r : Opts × List File) (h : r.1.sum = false ∨ r.1.param = false) : ¬ RunDisturbs r := by
  rintro ⟨_, f, _, -, -, hd⟩
  rcases h with h | h
  · rw [hd.2.2.1] at h; simp at h
  · rw [hd.2.2.2.2.1] at h; simp at h

/-- Conversions that do not disturb do not see each other: each ends as it does alone in a new process. -/
theorem independent : ∀ (rs : List (Opts × List File)), (∀ r ∈ rs, FreshFiles r.2 ∧ ¬ RunDisturbs r) →
    session [] rs = rs.map (fun r => (convert r.1 [] r.2).2) ∧ leftOver [] rs = []
  | [], _ => ⟨rfl, rfl⟩
  | r :: rs, h => by
    obtain ⟨h1, h2⟩ := h r List.mem_cons_self
    have hc := (clean_iff r h1).2 h2
    have ih := independent rs fun x hx => h x (List.mem_cons_of_mem _ hx)
    simp only [session, leftOver, hc, List.map_cons]
    exact ⟨by rw [ih.1], ih.2⟩

/-- The error reported is that of the first file that fails, if that does not disturb. -/
theorem error_kept (r : Opts × List File) (h : FreshFiles r.2) (hd : ¬ RunDisturbs r) (e : PyErr)
    (he : (convert r.1 [] r.2).2 = some e) :
    ∃ pre f post, r.2 = pre ++ f :: post ∧ (∀ g ∈ pre, fileError r.1 g = none) ∧ fileError r.1 f = some e := by
  rcases convert_cases r.1 r.2 h with ⟨h1, -⟩ | ⟨pre, f, post, e', h1, h2, h3, ⟨-, h4⟩ | ⟨hx, -⟩⟩
  · rw [h1] at he; simp at he
  · rw [h4] at he
    simp only [Option.some.injEq] at he
    subst he
    have hp : FreshFiles pre := fun g hg => h g (by rw [h1]; simp [hg])
    rcases convert_cases r.1 pre hp with ⟨-, h5⟩ | ⟨_, _, _, _, _, _, _, ⟨_, h6⟩ | ⟨_, h6, _⟩⟩
    · exact ⟨pre, f, post, h1, h5, h3⟩
    · rw [h6] at h2; simp at h2
    · rw [h6] at h2; simp at h2
  · exact absurd ⟨pre, f, post, h1, h2, hx⟩ hd

/-- A conversion that disturbs reports another error. -/
theorem error_hidden (r : Opts × List File) (h : FreshFiles r.2) (hd : RunDisturbs r) :
    (convert r.1 [] r.2).2 = some .valueError := by
  rcases convert_cases r.1 r.2 h with ⟨h1, -⟩ | ⟨pre, f, post, e', h1, h2, h3, ⟨-, h4⟩ | ⟨-, h4, -⟩⟩
  · exact absurd hd ((clean_iff r h).1 (by rw [h1]))
  · exact absurd hd ((clean_iff r h).1 (by rw [h4]))
  · exact h4

/-! ### What is left behind -/

theorem shares_core (l l' : List Flow) (h : l.map core = l'.map core) (k) : Shares l k ↔ Shares l' k := by
  rw [← mem_doubled, ← mem_doubled, doubled_core _ _ h]

/-- An exchange is left that refers to its variable and is not summed. -/
def Poisoned (k : Str × Str) (l : List Flow) : Prop :=
  (∃ g ∈ l, g.key = k ∧ g.var = true ∧ g.refVar = true) ∧ ¬ Shares l k

theorem construct_keeps (g : Flow) (hv : g.var = true) : ∀ l, g ∈ l → g ∈ (construct l).1
  | [], h => by simp at h
  | f :: l, h => by
    unfold construct
    cases hb : f.broken with
    | some e => exact h
    | none =>
      rcases List.mem_cons.1 h with rfl | h
      · simp only [hv, Bool.true_or]
        have : ({ g with broken := none, var := true } : Flow) = g := by
          obtain ⟨_, _, _, b, _, _, v, _⟩ := g
          simp only at hb hv
          rw [hb, hv]
        rw [this]
        exact List.mem_cons_self
      · exact List.mem_cons_of_mem _ (construct_keeps g hv l h)

theorem pass_core (o : Opts) (l : List Flow) : (pass o l).1.map core = l.map core := by
  have h1 : (if o.param then construct l else (l, none)).1.map core = l.map core := by
    split_ifs
    · exact construct_core l
    · rfl
  unfold pass
  simp only
  generalize (if o.param then construct l else (l, none)) = a at h1 ⊢
  obtain ⟨a, _ | e⟩ := a
  · simp only at h1 ⊢
    generalize (if o.sum then doubled a else []) = skip
    rcases hs : setVars skip a with ⟨b, _ | e⟩ <;>
    · simp only
      have := setVars_core skip a
      rw [hs] at this
      rw [this, h1]
  · exact h1

theorem pass_poisoned (o : Opts) (k) (l : List Flow) (h : Poisoned k l) :
    (pass o l).2 ≠ none ∧ Poisoned k (pass o l).1 := by
  obtain ⟨⟨g, hg, rfl, hv, hr⟩, hs⟩ := h
  have hs' : ¬ Shares (pass o l).1 g.key := fun h => hs ((shares_core _ _ (pass_core o l) _).1 h)
  suffices (pass o l).2 ≠ none ∧ g ∈ (pass o l).1 from ⟨this.1, ⟨g, this.2, rfl, hv, hr⟩, hs'⟩
  have h1 : (if o.param then construct l else (l, none)).1.map core = l.map core := by
    split_ifs
    · exact construct_core l
    · rfl
  have h2 : g ∈ (if o.param then construct l else (l, none)).1 := by
    split_ifs
    · exact construct_keeps g hv l hg
    · exact hg
  unfold pass
  simp only
  generalize (if o.param then construct l else (l, none)) = a at h1 h2 ⊢
  obtain ⟨a, _ | e⟩ := a
  · simp only at h1 h2 ⊢
    have hk : g.key ∉ (if o.sum then doubled a else []) := by
      split_ifs
      · rw [mem_doubled, shares_core _ _ h1]
        exact hs
      · simp
    generalize (if o.sum then doubled a else []) = skip at hk
    have h3 := setVars_some skip a ⟨g, h2, hv, hr, hk⟩
    have h4 := setVars_keeps skip g hr a h2
    rcases hsv : setVars skip a with ⟨b, _ | e⟩
    · rw [hsv] at h3; simp at h3
    · rw [hsv] at h4
      exact ⟨by simp, h4⟩
  · exact ⟨by simp, h2⟩

theorem delete_poisoned (k) (l : List Flow) (h : Poisoned k l) :
    (delete l).2 = some .valueError ∧ Poisoned k (delete l).1 := by
  obtain ⟨⟨g, hg, hk, hv, hr⟩, hs⟩ := h
  rw [delete_stuck l ⟨g, hg, hv, hr⟩]
  exact ⟨rfl, ⟨g, setVars_keeps _ g hr _ hg, hk, hv, hr⟩, fun h => hs ((shares_core _ _ (setVars_core _ _) _).1 h)⟩

theorem shares_append (k) (l m : List Flow) (h : ¬ Shares l k) (hm : ∀ g ∈ m, g.elementary = true → g.key ≠ k) :
    ¬ Shares (l ++ m) k := by
  have key : ∀ l : List Flow, Shares l k ↔ 1 < (l.filter fun f => f.elementary && f.key = k).length := by
    intro l
    rw [← mem_doubled, ← count_group]
    simp only [doubled, List.mem_dedup, List.mem_filter, decide_eq_true_eq]
    exact ⟨fun h => h.2, fun h => ⟨List.count_pos_iff.1 (by omega), h⟩⟩
  rw [key] at h ⊢
  rw [List.filter_append]
  have : (m.filter fun f => f.elementary && f.key = k) = [] := by
    rw [List.filter_eq_nil_iff]
    intro g hg
    simpa using hm g hg
  rw [this, List.append_nil]
  exact h

theorem oneFile_poisoned (o : Opts) (k) (l : List Flow) (f : File) (h : Poisoned k l)
    (hf : ∀ g ∈ f.flows, g.elementary = true → g.key ≠ k) :
    (oneFile o l f).2 ≠ none ∧ Poisoned k (oneFile o l f).1 := by
  have hp : Poisoned k (l ++ f.flows) := by
    obtain ⟨⟨g, hg, h1⟩, h2⟩ := h
    exact ⟨⟨g, List.mem_append_left _ hg, h1⟩, shares_append k l _ h2 hf⟩
  unfold oneFile
  cases f.fails with
  | some e => exact ⟨by simp, hp⟩
  | none =>
    simp only
    obtain ⟨h1, h2⟩ := pass_poisoned o k _ hp
    unfold finish
    rcases hx : pass o (l ++ f.flows) with ⟨l', _ | e⟩
    · rw [hx] at h1; simp at h1
    · rw [hx] at h2
      exact ⟨by simp, h2⟩

theorem convert_poisoned (o : Opts) (k) (l : List Flow) (fs : List File) (h : Poisoned k l)
    (hf : ∀ f ∈ fs, ∀ g ∈ f.flows, g.elementary = true → g.key ≠ k) :
    (fs ≠ [] → (convert o l fs).2 = some .valueError) ∧ Poisoned k (convert o l fs).1 := by
  cases fs with
  | nil => exact ⟨fun h => absurd rfl h, h⟩
  | cons f fs =>
    obtain ⟨h1, h2⟩ := oneFile_poisoned o k l f h (hf f List.mem_cons_self)
    unfold convert
    rcases hx : oneFile o l f with ⟨l', _ | e⟩
    · rw [hx] at h1; simp at h1
    · rw [hx] at h2
      obtain ⟨h3, h4⟩ := delete_poisoned k l' h2
      simp only
      rw [h3]
      exact ⟨fun _ => rfl, h4⟩

/-- After an exchange has been left behind, all conversions of the process fail with the same error, as long as none has
an elementary exchange with its target and direction, whatever their options and files are. -/
theorem fails_forever (k) : ∀ (rs : List (Opts × List File)) (l : List Flow), Poisoned k l →
    (∀ r ∈ rs, r.2 ≠ [] ∧ ∀ f ∈ r.2, ∀ g ∈ f.flows, g.elementary = true → g.key ≠ k) →
    session l rs = rs.map (fun _ => some .valueError) ∧ Poisoned k (leftOver l rs)
  | [], _, h, _ => ⟨rfl, h⟩
  | r :: rs, l, h, hr => by
    obtain ⟨h1, h2⟩ := hr r List.mem_cons_self
    obtain ⟨h3, h4⟩ := convert_poisoned r.1 k l r.2 h h2
    have ih := fails_forever k rs _ h4 fun x hx => hr x (List.mem_cons_of_mem _ hx)
    simp only [session, leftOver, List.map_cons, h3 h1]
    exact ⟨by rw [ih.1], ih.2⟩

/-- A conversion that disturbs leaves such an exchange behind. -/
theorem disturbs_poisons (r : Opts × List File) (h : FreshFiles r.2) (hd : RunDisturbs r) :
    ∃ k, Poisoned k (convert r.1 [] r.2).1 := by
  obtain ⟨pre, f, post, h1, h2, hd⟩ := hd
  have hf : ∀ g ∈ f.flows, Fresh g := h f (by rw [h1]; simp)
  have hpre : (convert r.1 [] pre).1 = [] := by
    cases pre with
    | nil => rfl
    | cons g pre => exact success_clean _ _ _ h2 (by simp)
  rw [h1, convert_append _ _ _ _ h2, hpre]
  obtain ⟨d1, d2, d3, d4, d5, g, hg, d6, d7⟩ := hd
  have herr := (pass_good_err r.1 f.flows hf d2).2 ⟨d3, d4⟩
  have hm : { g with var := true } ∈ made r.1 f.flows := by
    unfold made
    rw [if_pos d5]
    exact List.mem_map.2 ⟨g, hg, by simp [d6]⟩
  have hk : g.key ∉ doubled f.flows := by rw [mem_doubled]; exact d7
  have hin := setVars_sets (doubled f.flows) _ (setVars_none _ _ fun f' hf' _ hr => by
      rw [made_refVar r.1 f.flows hf f' hf'] at hr; simp at hr) _ hm rfl hk
  have hp : Poisoned g.key (pass r.1 f.flows).1 := by
    refine ⟨⟨{ g with var := true, refVar := true }, ?_, rfl, rfl, rfl⟩, ?_⟩
    · rw [pass_good r.1 f.flows hf d2, if_pos d3]
      exact hin
    · rw [shares_core _ _ (pass_core _ _)]
      exact d7
  have ho : oneFile r.1 [] f = pass r.1 f.flows := by
    rcases hx : pass r.1 f.flows with ⟨l', _ | e⟩
    · rw [hx] at herr; simp at herr
    · simp [oneFile, d1, finish, hx]
  refine ⟨g.key, ?_⟩
  rw [convert, ho]
  rcases hx : pass r.1 f.flows with ⟨l', _ | e⟩
  · rw [hx] at herr; simp at herr
  · rw [hx] at hp
    exact (delete_poisoned _ _ hp).2

/-- Two exchanges of a substance of which the first has no source; and an exchange with a variable. -/
def badFile : File :=
  ⟨[⟨(c!"co2", c!"Output"), true, true, none, false, none, false, false⟩,
    ⟨(c!"co2", c!"Output"), true, true, none, true, none, false, false⟩,
    ⟨(c!"heat", c!"Output"), false, true, none, false, none, false, false⟩], none, none⟩

def goodFile : File := ⟨[⟨(c!"steel", c!"Input"), false, true, none, false, none, false, false⟩], none, none⟩

example : Disturbs ⟨true, true⟩ badFile := by
  refine ⟨rfl, fun _ => by decide, rfl, ?_, rfl, ⟨(c!"heat", c!"Output"), false, true, none, false, none, false, false⟩, by
    simp [badFile], rfl, ?_⟩
  · exact ⟨[], _, [], _, _, rfl, rfl, rfl, rfl, by simp, .inl ⟨rfl, rfl⟩⟩
  · rw [← mem_doubled]
    decide

example : fileError ⟨true, true⟩ goodFile = none ∧ fileError ⟨true, true⟩ badFile ≠ none ∧
    fileError ⟨true, true⟩ { goodFile with unwritable := some .attributeError } = some .attributeError := by
  decide +kernel

/-- The statement of the property fails: after one bad file a good file is no longer converted, by any converter. -/
theorem witness_disturbed :
    session [] [(⟨true, true⟩, [badFile]), (⟨false, false⟩, [goodFile]), (⟨true, false⟩, [goodFile])] =
      [some .valueError, some .valueError, some .valueError] ∧
    session [] [(⟨true, true⟩, [goodFile]), (⟨false, false⟩, [goodFile])] = [none, none] ∧
    fileError ⟨true, true⟩ badFile = some .typeError := by
  decide +kernel

example : FreshFiles [badFile, goodFile] := by
  intro f hf g hg
  simp only [List.mem_cons, List.not_mem_nil, or_false] at hf
  rcases hf with rfl | rfl <;> revert g <;> simp [badFile, goodFile, Fresh]

/-! ## ILCD to EcoSpold2 -/

theorem parameters_error (l : List (Str × Var)) : (∃ e, parameters l = .error e) ↔ BadVariable l := by
  induction l with
  | nil => simp [parameters, BadVariable]
  | cons p l ih =>
    obtain ⟨n, v⟩ := p
    unfold parameters
    have hc : BadVariable ((n, v) :: l) ↔ (v.used = false ∧ v.bad ≠ none) ∨ BadVariable l := by
      simp [BadVariable]
    rw [hc, ← ih]
    cases hu : v.used with
    | true => simp
    | false =>
      cases hb : v.bad with
      | some e => simp
      | none => cases parameters l <;> simp [Except.map]

theorem parameters_ok (l : List (Str × Var)) (ps : List Str) (h : parameters l = .ok ps) :
    ps = (l.filter fun p => !p.2.used).map (·.1) := by
  induction l generalizing ps with
  | nil => simpa [parameters, eq_comm] using h
  | cons p l ih =>
    obtain ⟨n, v⟩ := p
    unfold parameters at h
    cases hu : v.used with
    | true => simpa [hu] using ih ps (by simpa [hu] using h)
    | false =>
      cases hb : v.bad with
      | some e => simp [hu, hb] at h
      | none =>
        cases hp : parameters l with
        | error e => simp [hu, hb, hp, Except.map] at h
        | ok qs =>
          simp only [hu, hb, hp, Except.map, Bool.false_eq_true, if_false, Except.ok.injEq] at h
          rw [← h, ih qs hp]
          simp [hu]

theorem sumShared_iff (l : List ((Str × Str) × Option PyErr)) : sumShared l ≠ none ↔ SumStopsI l := by
  simp only [sumShared, ne_eq, List.findSome?_eq_none_iff, List.mem_filter, decide_eq_true_eq, SumStopsI]
  push Not
  simp only [and_assoc]
  constructor
  · rintro ⟨f, h1, h2, h3⟩; exact ⟨f, h1, h3, h2⟩
  · rintro ⟨f, h1, h2, h3⟩; exact ⟨f, h1, h3, h2⟩

theorem passI_error (sum) (bad) (model) (s) : (∃ e, passI sum bad model s = .error e) ↔
    bad ≠ none ∨ model = true ∨ BadVariable s.vars ∨ (sum = true ∧ SumStopsI s.flows) := by
  unfold passI
  cases bad with
  | some e => simp
  | none =>
    cases model with
    | true => simp
    | false =>
      simp only [Bool.false_eq_true, if_false, ne_eq, not_true_eq_false, false_or]
      rw [← parameters_error, ← sumShared_iff]
      cases hp : parameters s.vars with
      | error e => simp
      | ok ps =>
        cases sum with
        | false => simp
        | true => cases hs : sumShared s.flows <;> simp

/-- What one file leaves behind, exactly. If it is converted, nothing; if it cannot be read, nothing unless a variable or
the system model cannot be written; if the work at the end of the file fails, everything; if the data set cannot be
written, nothing. -/
theorem leaves_iff (sum : Bool) (s : Shared) (f : FileI) :
    ((oneFileI sum s f).1 = s.read f ∧
      ((f.fails ≠ none ∧ (f.model ≠ none ∨ BadVariable (s.read f).vars)) ∨
       (f.fails = none ∧ (f.model ≠ none ∨ BadVariable (s.read f).vars ∨
        (sum = true ∧ SumStopsI (s.read f).flows))))) ∨
    ((oneFileI sum s f).1 = .empty ∧
      ((f.fails ≠ none ∧ f.model = none ∧ ¬ BadVariable (s.read f).vars) ∨
       (f.fails = none ∧ f.model = none ∧ ¬ BadVariable (s.read f).vars ∧
        ¬ (sum = true ∧ SumStopsI (s.read f).flows)))) := by
  unfold oneFileI
  cases hf : f.fails with
  | some e =>
    have h := passI_error false f.model false (s.read f)
    simp only [deleteI]
    cases hp : passI false f.model false (s.read f) with
    | error e' =>
      left
      rw [hp] at h
      have := h.1 ⟨e', rfl⟩
      simp only [Bool.false_eq_true, false_and, or_false, false_or] at this
      exact ⟨rfl, .inl ⟨by simp, this⟩⟩
    | ok ps =>
      right
      rw [hp] at h
      have := mt h.2 (by simp)
      simp only [Bool.false_eq_true, false_and, or_false, false_or, not_or, ne_eq, not_not] at this
      exact ⟨rfl, .inl ⟨by simp, this⟩⟩
  | none =>
    have h := passI_error sum f.model false (s.read f)
    simp only [deleteI]
    cases hp : passI sum f.model false (s.read f) with
    | error e' =>
      left
      rw [hp] at h
      have h1 := h.1 ⟨e', rfl⟩
      simp only [Bool.false_eq_true, false_or] at h1
      obtain ⟨e2, h2⟩ := (passI_error false f.model true (s.read f)).2 (.inr (.inl rfl))
      simp only [h2]
      exact ⟨trivial, .inr ⟨trivial, h1⟩⟩
    | ok ps =>
      right
      rw [hp] at h
      have h1 := mt h.2 (by simp)
      simp only [Bool.false_eq_true, false_or, not_or, ne_eq, not_not] at h1
      refine ⟨?_, .inr ⟨trivial, h1⟩⟩
      cases hu : f.unwritable with
      | none => rfl
      | some e =>
        simp only
        obtain ⟨e2, h2⟩ := (passI_error false f.model true .empty).2 (.inr (.inl rfl))
        simp only [h2]

/-- When the file has been read, a failure is always reported as another one: the system model is set twice. -/
theorem hidden_late (sum : Bool) (s : Shared) (f : FileI) (h1 : f.fails = none) (h2 : f.model = none) (e : PyErr)
    (h : (oneFileI sum s f).2 = .error e) : e = .valueError := by
  have hd : ∀ s, deleteI none true s = (s, some .valueError) := fun s => by simp [deleteI, passI]
  unfold oneFileI at h
  simp only [h1, h2, hd] at h
  cases hp : passI sum none false (s.read f) with
  | error e' => simpa [hp, eq_comm] using h
  | ok ps =>
    rw [hp] at h
    cases hu : f.unwritable with
    | some e' => simpa [hu, eq_comm] using h
    | none => simp [hu] at h

/-- An unknown system model is reported as it is, and leaves everything behind. -/
theorem model_error (sum : Bool) (s : Shared) (f : FileI) (e : PyErr) (h : f.model = some e) :
    oneFileI sum s f = (s.read f, .error e) := by
  have h1 : ∀ b m s, passI b (some e) m s = .error e := fun b m s => by simp [passI]
  unfold oneFileI
  cases hf : f.fails <;> simp [h, h1, deleteI]
example : (⟨[], [], [], none, some .keyError, none⟩ : FileI).model = some .keyError := rfl

/-- A failure in reading a file is reported as it is, unless a variable or the system model cannot be written. -/
theorem kept_early (sum : Bool) (s : Shared) (f : FileI) (e : PyErr) (h1 : f.fails = some e) (h2 : f.model = none)
    (h3 : ¬ BadVariable (s.read f).vars) : oneFileI sum s f = (.empty, .error e) := by
  have hp : ∃ ps, passI false none false (s.read f) = .ok ps := by
    cases h : passI false none false (s.read f) with
    | ok ps => exact ⟨ps, rfl⟩
    | error e' =>
      have := (passI_error false none false (s.read f)).1 ⟨e', h⟩
      simp [h3] at this
  obtain ⟨ps, hp⟩ := hp
  simp [oneFileI, h1, h2, deleteI, hp]

theorem mem_aset_other (n : Str) (v : Var) (p : Str × Var) (hp : p.1 ≠ n) :
    ∀ m, (n, v) ∈ m → (n, v) ∈ aset p.1 p.2 m
  | [], hm => by simp at hm
  | (k, w) :: m, hm => by
    unfold aset
    rcases List.mem_cons.1 hm with h | hm
    · simp only [Prod.mk.injEq] at h
      obtain ⟨rfl, rfl⟩ := h
      simp [Ne.symm hp]
    · split_ifs
      · exact List.mem_cons_of_mem _ hm
      · exact List.mem_cons_of_mem _ (mem_aset_other n v p hp m hm)

/-- A variable stays that a file does not mention. -/
theorem read_keeps (s : Shared) (f : FileI) (n : Str) (v : Var) (hv : (n, v) ∈ s.vars) (hn : ∀ p ∈ f.vars, p.1 ≠ n) :
    (n, v) ∈ (s.read f).vars := by
  have key : ∀ (l : List (Str × Var)) (m : List (Str × Var)), (∀ p ∈ l, p.1 ≠ n) → (n, v) ∈ m →
      (n, v) ∈ l.foldl (fun l v => aset v.1 v.2 l) m := by
    intro l
    induction l with
    | nil => intro m _ hm; exact hm
    | cons p l ih =>
      intro m hl hm
      exact ih _ (fun q hq => hl q (List.mem_cons_of_mem _ hq)) (mem_aset_other n v p (hl p List.mem_cons_self) m hm)
  exact key _ _ hn hv

/-- A data set that is written has the variables of what was left behind among its parameters, unless it uses or defines
variables of these names. -/
theorem left_leak (sum : Bool) (s : Shared) (f : FileI) (n : Str) (v : Var) (hv : (n, v) ∈ s.vars) (hu : v.used = false)
    (hn : ∀ p ∈ f.vars, p.1 ≠ n) (s' : Shared) (ps : List Str) (h : oneFileI sum s f = (s', .ok ps)) : n ∈ ps := by
  have hr := read_keeps s f n v hv hn
  have hp : passI sum f.model false (s.read f) = .ok ps := by
    unfold oneFileI at h
    cases hf : f.fails with
    | some e => simp [hf] at h
    | none =>
      cases hp : passI sum f.model false (s.read f) with
      | error e => simp [hf, hp] at h
      | ok ps' =>
        cases hw : f.unwritable with
        | some e => simp [hf, hp, hw] at h
        | none =>
          simp only [hf, hp, hw, Prod.mk.injEq, Except.ok.injEq] at h
          rw [h.2]
  have hq : parameters (s.read f).vars = .ok ps := by
    unfold passI at hp
    cases hm : f.model with
    | some e => simp [hm] at hp
    | none =>
      cases hq : parameters (s.read f).vars with
      | error e => simp [hm, hq] at hp
      | ok qs =>
        cases sum with
        | false => simpa [hm, hq] using hp
        | true =>
          cases hs : sumShared (s.read f).flows with
          | some e => simp [hm, hq, hs] at hp
          | none => simpa [hm, hq, hs] using hp
  rw [parameters_ok _ _ hq]
  exact List.mem_map.2 ⟨(n, v), List.mem_filter.2 ⟨hr, by simp [hu]⟩, rfl⟩

/-- A variable that cannot be written as a parameter and is left behind makes all later conversions of the process fail,
as long as no file uses or defines a variable of its name. -/
theorem bad_variable_forever (n : Str) (v : Var) (hu : v.used = false) (hb : v.bad ≠ none) :
    ∀ (rs : List (Bool × List FileI)) (s : Shared), (n, v) ∈ s.vars →
    (∀ r ∈ rs, r.2 ≠ [] ∧ ∀ f ∈ r.2, ∀ p ∈ f.vars, p.1 ≠ n) →
    (n, v) ∈ (leftOverI s rs).vars ∧
      ∀ a r b, rs = a ++ r :: b → ∃ e, (convertI r.1 (leftOverI s a) r.2).2 = .error e
  | [], s, hs, _ => ⟨hs, fun a r b h => by simp at h⟩
  | r :: rs, s, hs, hr => by
    obtain ⟨h1, h2⟩ := hr r List.mem_cons_self
    have step : (n, v) ∈ (convertI r.1 s r.2).1.vars ∧ ∃ e, (convertI r.1 s r.2).2 = .error e := by
      obtain ⟨sum, fs⟩ := r
      cases fs with
      | nil => exact absurd rfl h1
      | cons f fs =>
        have hk := read_keeps s f n v hs (h2 f List.mem_cons_self)
        have hbad : BadVariable (s.read f).vars := ⟨_, hk, hu, hb⟩
        have hl := leaves_iff sum s f
        have he : (oneFileI sum s f).1 = s.read f := by
          rcases hl with h | ⟨-, ⟨-, -, h⟩ | ⟨-, -, h, -⟩⟩
          · exact h.1
          · exact absurd hbad h
          · exact absurd hbad h
        have herr : ∃ e, (oneFileI sum s f).2 = .error e := by
          unfold oneFileI
          cases f.fails with
          | some e => exact ⟨_, rfl⟩
          | none =>
            obtain ⟨e, h⟩ := (passI_error sum f.model false (s.read f)).2 (.inr (.inr (.inl hbad)))
            simp [h]
        obtain ⟨e, herr⟩ := herr
        have : oneFileI sum s f = (s.read f, .error e) := by rw [← he, ← herr]
        simp only [convertI, this]
        exact ⟨hk, e, rfl⟩
    have ih := bad_variable_forever n v hu hb rs _ step.1 fun x hx => hr x (List.mem_cons_of_mem _ hx)
    refine ⟨ih.1, fun a x b h => ?_⟩
    cases a with
    | nil =>
      simp only [List.nil_append, List.cons.injEq] at h
      rw [← h.1]
      exact step.2
    | cons y a =>
      simp only [List.cons_append, List.cons.injEq] at h
      rw [← h.1]
      exact ih.2 a x b h.2

/-- Conversions that leave nothing behind do not see each other. -/
theorem success_clean_ilcd (sum : Bool) : ∀ (fs : List FileI) (s : Shared) (l : List (List Str)),
    (convertI sum s fs).2 = .ok l → fs ≠ [] → (convertI sum s fs).1 = .empty
  | [], _, _, _, h => absurd rfl h
  | f :: fs, s, l, h, _ => by
    have one : ∀ ps, (oneFileI sum s f).2 = .ok ps → (oneFileI sum s f).1 = .empty := by
      intro ps hps
      unfold oneFileI at hps ⊢
      cases hf : f.fails with
      | some e => simp [hf] at hps
      | none =>
        cases hp : passI sum f.model false (s.read f) with
        | error e => simp [hf, hp] at hps
        | ok qs =>
          cases hw : f.unwritable with
          | some e => simp [hf, hp, hw] at hps
          | none => rfl
    rcases ho : oneFileI sum s f with ⟨s', e | ps⟩
    · simp [convertI, ho] at h
    · have hs := one ps (by rw [ho])
      rw [ho] at hs
      simp only at hs
      subst hs
      rcases hc : convertI sum .empty fs with ⟨s2, e | l'⟩
      · simp [convertI, ho, hc] at h
      · cases fs with
        | nil =>
          simp only [convertI, ho]
        | cons g fs =>
          have := success_clean_ilcd sum (g :: fs) .empty l' (by rw [hc]) (by simp)
          rw [hc] at this
          simp only at this
          simp only [convertI, ho] at hc ⊢
          rw [hc]
          exact this

/-- A file with a variable whose name is no name of EcoSpold2, a file with exchanges that cannot be added, and a file
without faults. -/
def badName : FileI := ⟨[(c!"a b", ⟨false, some .valueError⟩)], [], [], none, none, none⟩
def badSum : FileI :=
  ⟨[(c!"yield", ⟨false, none⟩)], [((c!"co2", c!"4"), some .typeError), ((c!"co2", c!"4"), none)], [], none, none, none⟩
def plain : FileI := ⟨[(c!"loss", ⟨false, none⟩)], [((c!"ch4", c!"4"), none)], [], none, none, none⟩

/-- The statement of the property fails: the good file is not converted after the first, and has a parameter of the
second. -/
theorem witness_disturbed_ilcd :
    (convertI false .empty [plain]).2.toOption = some [[c!"loss"]] ∧
    (convertI false (convertI false .empty [badName]).1 [plain]).2.toOption = none ∧
    (convertI false (convertI true .empty [badSum]).1 [plain]).2.toOption = some [[c!"yield", c!"loss"]] := by
  decide +kernel

example : BadVariable (Shared.empty.read badName).vars := ⟨_, List.mem_cons_self, rfl, by simp⟩
example : SumStopsI (Shared.empty.read badSum).flows := ⟨_, List.mem_cons_self, by simp, by decide⟩
example : (oneFileI true .empty badSum).1.vars = [(c!"yield", ⟨false, none⟩)] := by decide

end Verif.Session
