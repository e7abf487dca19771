/-
Properties of the files that are written: C175 (a file can be read exactly when its texts are texts of XML), C176 (what is
read of a file that was written), C177 (attributes come back), C178 (no text changes the elements of a file) and C179 (the
data sets of both formats).
-/
import Verif.Lemmas.XmlFile
import Verif.Lemmas.XmlPath
import Verif.Props.XmlStream

namespace Verif.XmlWrite
open Verif.XmlParse
open Verif.DotDict
open Verif.Schema
open Verif.Xml (Elem localName elem2dict)
open Verif.Xml.Spec (select pathText Name WellNamed)
open Spec (IsName Named Plain newlines Same localPart prefixPart Qualified attrKeys declared plainKeys kidKeys textFit isList
  fits kidsFit rowFits written textOf visible attrsBack textBack alone back reach children)

theorem parse_ok {s : Str} {x e : Elem} (hd : document s = some x) (hr : resolve xmlNs x = some e) : parse s = .ok e := by
  rw [parse, hd, Option.bind_some, hr]

theorem parse_none {s : Str} (hd : document s = none) : parse s = .error (.other 1) := by rw [parse, hd]; rfl

theorem binds_xml : Binds [c!"xml"] xmlNs := by
  intro p hp _
  rw [List.mem_singleton] at hp
  subst hp
  decide

theorem unparse_one (env : Env) (k : Str) (v : PyVal) : unparse env [(k, v)] =
    match rowOf env k v with
    | .error e => .error e
    | .ok [] => .ok header
    | .ok [t] => .ok (header ++ body 0 t)
    | .ok _ => .error .valueError := by cases v <;> rfl

/-- All that is shown of a file: there is one, it can be read if its texts are texts of XML, and the elements that are read
stand for the values that were written. -/
theorem written_file (env : Env) (k : Str) (v : PyVal) (hl : isList v = false)
    (hq : Qualified [c!"xml"] k) (hf : fits [c!"xml"] v = true) :
    ∃ s, unparse env [(k, v)] = .ok s ∧
      ((∀ x ∈ written env v, x.all xmlChar = true) →
        ∃ e, parse s = .ok e ∧ WellNamed e ∧ Stands env (k, v) e) ∧
      ((¬ ∀ x ∈ written env v, x.all xmlChar = true) → parse s = .error (.other 1)) := by
  obtain ⟨t, ht, hg⟩ := tree_fits env v hl [c!"xml"] hf k
  have hg' := hg
  obtain ⟨g1, g2, g3, g4⟩ := hg'
  obtain ⟨hn, hb⟩ := g2 hq
  refine ⟨header ++ body 0 t, ?_, ?_, ?_⟩
  · have : rowOf env k v = .ok [t] := by rw [rowOf_one env k hl, ht]; rfl
    rw [unparse_one, this]
  · intro hx
    obtain ⟨e, h1, h2, h3, h4⟩ := resolve_raw (newlines t) _ (bound_newlines t _ hb) xmlNs binds_xml 0 []
    exact ⟨e, parse_ok ((document_text t hn).1 (g3.2 hx)) h1, h4,
      stands_tree env v hl _ hf k hq t ht xmlNs binds_xml 0 [] e h1⟩
  · intro hx
    exact parse_none ((document_text t hn).2 fun hp => hx (g3.1 hp))

/-! ### C175 -/

/-- A dictionary that stands for an element is written, and the file can be read if and only if all texts and all values of
attributes consist of characters that XML allows. -/
theorem written_readable_iff (env : Env) (k : Str) (v : PyVal) (hl : isList v = false)
    (hq : Qualified [c!"xml"] k) (hf : fits [c!"xml"] v = true) :
    ∃ s, unparse env [(k, v)] = .ok s ∧ ((∃ e, parse s = .ok e) ↔ ∀ x ∈ written env v, x.all xmlChar = true) := by
  obtain ⟨s, h1, h2, h3⟩ := written_file env k v hl hq hf
  refine ⟨s, h1, ?_, ?_⟩
  · intro ⟨e, he⟩
    by_contra hx
    rw [h3 hx] at he
    cases he
  · intro hx
    obtain ⟨e, he, _⟩ := h2 hx
    exact ⟨e, he⟩

/-- The part of C175 that holds: texts of XML give a file that can be read, whatever they contain. -/
theorem written_readable_partial (env : Env) (k : Str) (v : PyVal) (hl : isList v = false)
    (hq : Qualified [c!"xml"] k) (hf : fits [c!"xml"] v = true) (hx : ∀ x ∈ written env v, x.all xmlChar = true) :
    ∃ s e, unparse env [(k, v)] = .ok s ∧ parse s = .ok e := by
  obtain ⟨s, h1, h2⟩ := written_readable_iff env k v hl hq hf
  obtain ⟨e, he⟩ := h2.2 hx
  exact ⟨s, e, h1, he⟩

/-- A comment with a form feed, as it stands in texts copied from other documents. -/
def pageBreak : PyVal := .dict [(c!"@xml:lang", .str c!"en"), (c!"#text", .str ['a', Char.ofNat 12, 'b'])]

def plainEnv : Env := ⟨fun _ => c!"0"⟩

/-- C175 fails: the comment is written into a file that no parser takes. -/
theorem written_unreadable : ∃ s, unparse plainEnv [(c!"comment", pageBreak)] = .ok s ∧ parse s = .error (.other 1) := by
  obtain ⟨s, h1, _, h3⟩ := written_file plainEnv c!"comment" pageBreak rfl (by decide) (by decide)
  exact ⟨s, h1, h3 (by decide)⟩

/-- Markup in texts is no obstacle. -/
example : ∃ s e, unparse plainEnv [(c!"a", .dict [(c!"@x", .str c!"\"<'&\n"), (c!"b", .list [.str c!"</b>]]>&amp;", .none])])] = .ok s ∧
    parse s = .ok e :=
  written_readable_partial plainEnv c!"a" _ rfl (by decide) (by decide) (by decide)

/-! ### C176 -/

/-- The document read of a written file stands for the value that was written. -/
theorem written_read_back (env : Env) (k : Str) (v : PyVal) (hl : isList v = false)
    (hq : Qualified [c!"xml"] k) (hf : fits [c!"xml"] v = true) (hx : ∀ x ∈ written env v, x.all xmlChar = true) :
    ∃ s e, unparse env [(k, v)] = .ok s ∧ parse s = .ok e ∧ localName e.tag = localPart k ∧ elem2dict e = back env v := by
  obtain ⟨s, h1, h2, _⟩ := written_file env k v hl hq hf
  obtain ⟨e, he, _, hs⟩ := h2 hx
  exact ⟨s, e, h1, he, hs.name, hs.value⟩

/-- Under every path that is asked for, the values that were written there are delivered, each once and in their order. -/
theorem written_delivered (env : Env) (k : Str) (v : PyVal) (hl : isList v = false)
    (hq : Qualified [c!"xml"] k) (hf : fits [c!"xml"] v = true) (hx : ∀ x ∈ written env v, x.all xmlChar = true) :
    ∃ s e, unparse env [(k, v)] = .ok s ∧ parse s = .ok e ∧
      ∀ (keys ns : List Str), ns ≠ [] → (∀ n ∈ ns, Name n) →
        ((Xml.read keys e).filter fun p => decide (p.1 = pathText ns)).map Prod.snd =
          if pathText ns ∈ keys then (reach ns [(k, v)]).map (back env) else [] := by
  obtain ⟨s, h1, h2, _⟩ := written_file env k v hl hq hf
  obtain ⟨e, he, hw, hs⟩ := h2 hx
  refine ⟨s, e, h1, he, fun keys ns hne hns => ?_⟩
  rw [Xml.elements_delivered keys e hw ns hne hns, select_reach env ns _ _ (.cons hs .nil)]

/-- A text comes back unchanged if and only if it shows something and has no carriage return. -/
theorem text_back_iff (env : Env) (s : Str) : back env (.str s) = .str s ↔ visible s = true ∧ '\r' ∉ s := by
  have hb : back env (.str s) = alone (textBack [] s) := by rw [back] <;> simp [textOf]
  rw [hb, textBack]
  by_cases hv : visible s = true
  · rw [if_pos hv]
    have : alone [(c!"#text", PyVal.str (normNl s))] = .str (normNl s) := rfl
    rw [this]
    constructor
    · intro h
      refine ⟨hv, ?_⟩
      intro hc
      have hn : '\r' ∉ normNl s := normNl_noCr s
      rw [PyVal.str.inj h] at hn
      exact hn hc
    · intro h
      have := normNl_left h.2 []
      rw [List.append_nil, normNl, List.append_nil] at this
      rw [this]
  · rw [if_neg hv]
    simp [hv, alone]

/-- An element with a language keeps its text, even if it is empty. -/
theorem language_back (env : Env) (lang s : Str) (hr : '\r' ∉ s) (hs : visible s = true ∨ s = []) :
    back env (.dict [(c!"@xml:lang", .str lang), (c!"#text", .str s)]) =
      .dict [(c!"@lang", .str lang), (c!"#text", .str s)] := by
  have hn : normNl s = s := by
    have := normNl_left hr []
    rwa [List.append_nil, normNl, List.append_nil] at this
  have ha : attrsBack env [(c!"@xml:lang", PyVal.str lang), (c!"#text", .str s)] = [(c!"@lang", .str lang)] := rfl
  have hk : Spec.backKids env [(c!"@xml:lang", PyVal.str lang), (c!"#text", .str s)] = [] := rfl
  have ht : textOf env ((aget c!"#text" [(c!"@xml:lang", PyVal.str lang), (c!"#text", .str s)]).getD .none) = s := rfl
  rw [back, ha, hk, ht, textBack, hn]
  rcases hs with hs | rfl
  · rw [if_pos hs]; rfl
  · rfl

/-- C176 fails: white space alone is gone, with the text of an element that has children, and line ends change. -/
theorem written_lost :
    back plainEnv (.str c!" ") = .dict [] ∧
    back plainEnv (.dict [(c!"#text", .str c!"note"), (c!"b", .str c!"x")]) = .dict [(c!"b", .str c!"x")] ∧
    back plainEnv (.str c!"a\r\nb") = .str c!"a\nb" := ⟨rfl, rfl, rfl⟩

/-- An exchange with two comments: everything is found again under its path. -/
def sample : PyVal := .dict [
  (c!"@xmlns", .str c!"u"), (c!"@xmlns:common", .str c!"w"), (c!"@id", .int 1),
  (c!"common:comment", .list [.dict [(c!"@xml:lang", .str c!"en"), (c!"#text", .str c!"1 < 2")],
    .dict [(c!"@xml:lang", .str c!"de"), (c!"#text", .str c!"")]]),
  (c!"amount", .str c!"2.5")]

example : ∃ s e, unparse plainEnv [(c!"exchange", sample)] = .ok s ∧ parse s = .ok e ∧
    localName e.tag = c!"exchange" ∧ elem2dict e = .dict [(c!"@id", .str c!"0"),
      (c!"comment", .list [.dict [(c!"@lang", .str c!"en"), (c!"#text", .str c!"1 < 2")],
        .dict [(c!"@lang", .str c!"de"), (c!"#text", .str c!"")]]),
      (c!"amount", .str c!"2.5")] := by
  obtain ⟨s, e, h1, h2, h3, h4⟩ := written_read_back plainEnv c!"exchange" sample rfl (by decide) (by decide) (by decide)
  exact ⟨s, e, h1, h2, h3, h4⟩

example : reach [c!"exchange", c!"comment"] [(c!"exchange", sample)] =
    [.dict [(c!"@xml:lang", .str c!"en"), (c!"#text", .str c!"1 < 2")],
    .dict [(c!"@xml:lang", .str c!"de"), (c!"#text", .str c!"")]] := by rfl

example : back plainEnv (.str c!"a & b") = .str c!"a & b" := (text_back_iff plainEnv _).2 (by decide)

example : back plainEnv (.dict [(c!"@xml:lang", .str c!"en"), (c!"#text", .str [])]) =
    .dict [(c!"@lang", .str c!"en"), (c!"#text", .str [])] := language_back plainEnv _ _ (by decide) (by decide)

/-! ### C177 -/

theorem attrsBack_mem (env : Env) {d : List (Str × PyVal)} {n : Str} {v : PyVal} (h : ('@' :: n, v) ∈ d)
    (hn : declares n = none) : ('@' :: localPart n, .str (attrText env v)) ∈ attrsBack env d := by
  induction d with
  | nil => simp at h
  | cons x l ih =>
    obtain ⟨k, w⟩ := x
    rcases List.mem_cons.1 h with h' | h'
    · cases h'
      rw [attrsBack, if_neg (by simp [hn])]
      simp
    · clear h
      rw [attrsBack_cons]
      split
      · split
        · exact ih h'
        · exact List.mem_cons_of_mem _ (ih h')
      · exact ih h'

/-- Every attribute comes back with exactly its text, whatever characters of XML it contains. -/
theorem attribute_back (env : Env) (ps : List Str) (d : List (Str × PyVal)) (hf : fits ps (.dict d) = true) (n : Str)
    (v : PyVal) (hm : ('@' :: n, v) ∈ d) (hn : declares n = none) :
    ∃ r, back env (.dict d) = .dict r ∧ aget ('@' :: localPart n) r = some (.str (attrText env v)) := by
  have ha := attrsBack_mem env hm hn
  rw [back]
  generalize (if (Spec.backKids env d).isEmpty then _ else _ : List (Str × PyVal)) = tx
  generalize Spec.backKids env d = ks
  generalize hr : attrsBack env d ++ tx ++ ks = r
  have hin : ('@' :: localPart n, .str (attrText env v)) ∈ attrsBack env d := ha
  refine ⟨r, ?_, ?_⟩
  · have hmem : ('@' :: localPart n, PyVal.str (attrText env v)) ∈ r := by
      rw [← hr]; simp [hin]
    unfold alone
    split
    · rename_i k w
      rw [List.mem_singleton] at hmem
      cases hmem
      rw [if_neg (by simp)]
    · rfl
  · have hnd : ((attrsBack env d).map Prod.fst).Nodup := by
      rw [fits] at hf
      simp only [Bool.and_eq_true, decide_eq_true_eq] at hf
      have h4 := hf.1.1.1.2
      have : (attrsBack env d).map Prod.fst = ((plainKeys d).map localPart).map fun n => '@' :: n := by
        clear hf hr hin ha hm h4
        induction d with
        | nil => rfl
        | cons x l ih =>
          obtain ⟨k, w⟩ := x
          rw [attrsBack_cons, plainKeys, attrKeys_cons]
          split
          · rename_i n' 
            rw [List.filter_cons]
            by_cases hd : (declares n').isSome = true
            · rw [if_pos hd, if_neg (by rw [Option.isSome_iff_ne_none] at hd; simpa using hd)]
              exact ih
            · rw [if_neg hd, if_pos (by simpa using hd), List.map_cons, List.map_cons, List.map_cons, ih]
              rfl
          · exact ih
      rw [this]
      exact h4.map (by intro a b h; exact (List.cons.inj h).2)
    rw [← hr, List.append_assoc, aget_append, aget_eq_of_mem hnd hin]
    rfl

example : ∃ r, back plainEnv (.dict [(c!"@xmlns", .str c!"u"), (c!"@name", .str c!" \r\n\"'<&> ")]) = .dict r ∧
    aget c!"@name" r = some (.str c!" \r\n\"'<&> ") :=
  attribute_back plainEnv [] [(c!"@xmlns", .str c!"u"), (c!"@name", .str c!" \r\n\"'<&> ")] (by decide) c!"name"
    (.str c!" \r\n\"'<&> ") (by simp) (by decide)

/-! ### C178 -/

/-- Whatever the texts contain, the elements that are read are those that were written, with the same attributes and texts, in
the same order; only the ends of lines of the texts are normalised. -/
theorem structure_kept (t : Tree) (h : Named t) (hp : Plain t) :
    ∃ e, document (header ++ body 0 t) = some e ∧ Same (newlines t) e :=
  ⟨_, (document_text t h).1 hp, same_raw _ _ _⟩

/-- And nothing is read otherwise. -/
theorem structure_kept_iff (t : Tree) (h : Named t) : (∃ e, document (header ++ body 0 t) = some e) ↔ Plain t := by
  constructor
  · intro ⟨e, he⟩
    by_contra hp
    rw [(document_text t h).2 hp] at he
    cases he
  · intro hp
    exact ⟨_, (document_text t h).1 hp⟩

/-- A text that tries to end its element. -/
def attack : Tree := .mk c!"a" [(c!"x", c!"\"><b/><c y=\"")] [.mk c!"b" [] [] c!"</b></a><!-- ]]>"] []

example : ∃ e, document (header ++ body 0 attack) = some e ∧ Same (newlines attack) e :=
  structure_kept attack (by simp [attack, Named, Spec.NamedAll]; decide) (by simp [attack, Plain, Spec.PlainAll]; decide)

/-! ### C179 -/

variable {V R : Type}

/-- The values the fields give stand for elements, so that the condition on the fields in the next theorems is met. -/
theorem fields_fit (vs : Validators Str V R PyVal) (ps : List Str) (hp : c!"xml" ∈ ps)
    (hv : ∀ v o, vs.fin v = .ok o → Spec.FieldValue o) (hs : ∀ o, ∃ s, vs.str o = .str s) : LeavesFit vs ps :=
  ⟨fun v o h => fieldValue_fits (hv v o h) hp, fun _ o _ => hs o⟩

/-- Comments in two languages, and a number. -/
def mixed : Validators Str Bool Str PyVal := ⟨fun _ => true, fun _ v _ => .ok v,
  fun v => .ok (if v then .list [.dict [(c!"@xml:lang", .str c!"en"), (c!"@index", .int 1), (c!"#text", .str c!"a")],
    .dict [(c!"@xml:lang", .str c!"de"), (c!"@index", .int 2), (c!"#text", .str c!"b")]] else .int 3), fun _ => .str c!"x"⟩

example : LeavesFit mixed ecs2Prefixes := by
  refine fields_fit mixed _ (by decide) ?_ (fun _ => ⟨_, rfl⟩)
  intro v o h
  cases v with
  | false => cases h; exact .scalar _ rfl
  | true =>
    cases h
    refine .list _ ?_
    intro v hv
    simp only [List.mem_cons, List.not_mem_nil, or_false] at hv
    rcases hv with rfl | rfl
    · exact .inr ⟨_, rfl, by simp, by simp, fun v h => ⟨c!"a", (Option.some.inj h).symm⟩⟩
    · exact .inr ⟨_, rfl, by simp, by simp, fun v h => ⟨c!"b", (Option.some.inj h).symm⟩⟩

/-- The document of a data set of ILCD is written; the file can be read exactly when its texts are texts of XML, and gives the
written values under their paths. The classes of openLCA need the structure that declares their prefix. -/
theorem ilcd_file (env : Env) (vs : Validators Str V R PyVal) (olca : Bool) (p : Key → Node V)
    (hvs : LeavesFit vs (ilcdPrefixes olca)) (hw : ∀ k, WF ilcd (p k)) (hc : ∀ k, Classes ilcd (p k))
    (ho : olca = false → ∀ k, (p k).cls ∉ olcaClasses) (doc : List (Str × PyVal)) (hd : ilcdDoc vs olca p = .ok doc) :
    ∃ v s, doc = [(c!"processDataSet", v)] ∧ unparse env doc = .ok s ∧
      ((¬ ∀ x ∈ written env v, x.all xmlChar = true) → parse s = .error (.other 1)) ∧
      ((∀ x ∈ written env v, x.all xmlChar = true) → ∃ e, parse s = .ok e ∧
        ∀ (keys ns : List Str), ns ≠ [] → (∀ n ∈ ns, Name n) →
          ((Xml.read keys e).filter fun p => decide (p.1 = pathText ns)).map Prod.snd =
            if pathText ns ∈ keys then (reach ns doc).map (back env) else []) := by
  obtain ⟨v, rfl, hl, hf⟩ := ilcd_doc_fits (olca := olca) (fun k v hv => by
    obtain ⟨o, h1, rfl⟩ := part_ok hv
    cases olca with
    | false =>
      obtain ⟨d, h2, h3⟩ := ilcd_group vs hvs (p k) (hw k) (hc k) (ho rfl k) o h1
      rw [h2]; exact h3
    | true =>
      obtain ⟨d, h2, h3⟩ := olca_group vs hvs (p k) (hw k) (hc k) o h1
      rw [h2]; exact h3) hd
  obtain ⟨s, h1, h2, h3⟩ := written_file env c!"processDataSet" v hl (by decide) hf
  refine ⟨v, s, rfl, h1, h3, fun hx => ?_⟩
  obtain ⟨e, he, hwn, hs⟩ := h2 hx
  refine ⟨e, he, fun keys ns hne hns => ?_⟩
  rw [Xml.elements_delivered keys e hwn ns hne hns, select_reach env ns _ _ (.cons hs .nil)]

/-- The same for the document of a data set of EcoSpold2, with or without user master data. -/
theorem ecs2_file (env : Env) (vs : Validators Str V R PyVal) (user : Bool) (p : Key → Node V)
    (hvs : LeavesFit vs ecs2Prefixes) (hw : ∀ k, WF ecs2 (p k)) (hc : ∀ k, Classes ecs2 (p k))
    (doc : List (Str × PyVal)) (hd : ecs2Doc vs user p = .ok doc) :
    ∃ v s, doc = [(c!"ecoSpold", v)] ∧ unparse env doc = .ok s ∧
      ((¬ ∀ x ∈ written env v, x.all xmlChar = true) → parse s = .error (.other 1)) ∧
      ((∀ x ∈ written env v, x.all xmlChar = true) → ∃ e, parse s = .ok e ∧
        ∀ (keys ns : List Str), ns ≠ [] → (∀ n ∈ ns, Name n) →
          ((Xml.read keys e).filter fun p => decide (p.1 = pathText ns)).map Prod.snd =
            if pathText ns ∈ keys then (reach ns doc).map (back env) else []) := by
  obtain ⟨v, rfl, hl, hf⟩ := ecs2_doc_fits (user := user) (fun k v hv => by
    obtain ⟨o, h1, rfl⟩ := part_ok hv
    obtain ⟨d, h2, h3⟩ := ecs2_group vs hvs (p k) (hw k) (hc k) o h1
    refine ⟨d, h2, ?_, ecs2_declares_nothing vs (p k) (hw k) o h1 d h2⟩
    rw [h2]; exact h3) hd
  obtain ⟨s, h1, h2, h3⟩ := written_file env c!"ecoSpold" v hl (by decide) hf
  refine ⟨v, s, rfl, h1, h3, fun hx => ?_⟩
  obtain ⟨e, he, hwn, hs⟩ := h2 hx
  refine ⟨e, he, fun keys ns hne hns => ?_⟩
  rw [Xml.elements_delivered keys e hwn ns hne hns, select_reach env ns _ _ (.cons hs .nil)]

/-- Every value is a text. -/
def texts : Validators Str Str Str PyVal := ⟨fun _ => [], fun _ _ r => .ok r, fun v => .ok (.str v), id⟩

theorem texts_fit (ps : List Str) : LeavesFit texts ps :=
  ⟨fun v o h => by cases h; rfl, fun v o h => by cases h; exact ⟨v, rfl⟩⟩

/-- A node with one text. -/
def one (c : Cls) (k : Key) (s : Str) : Node Str := .mk c [(k, .leaf s)]

theorem one_wf {S : Schema Str} {c : Cls} {k : Key} {s : Str} {f : Field Str} {y : Str} (hf : lookup k (S c) = some f)
    (ht : f.type = .leaf y) : WF S (one c k s) := by
  refine .mk ?_ (by simp) ?_
  · intro k' v h
    simp only [List.mem_singleton, Prod.mk.injEq] at h
    obtain ⟨rfl, rfl⟩ := h
    exact ⟨f, hf, y, ht⟩
  · intro k' l h
    simp at h

theorem one_classes {S : Schema Str} {c : Cls} {k : Key} {s : Str} : Classes S (one c k s) := by
  refine .mk ?_ ?_
  · intro k' l h
    simp at h
  · intro k' l h
    simp at h

example : ∃ v s, ilcdDoc texts false (fun _ => one c!"QuantitativeReference" c!"type" c!"a < b") = .ok [(c!"processDataSet", v)] ∧
    unparse plainEnv [(c!"processDataSet", v)] = .ok s ∧ ∃ e, parse s = .ok e := by
  obtain ⟨v, s, h1, h2, _, h4⟩ := ilcd_file plainEnv texts false (fun _ => one c!"QuantitativeReference" c!"type" c!"a < b")
    (texts_fit _) (fun _ => one_wf (S := ilcd) (c := c!"QuantitativeReference") (k := c!"type") rfl rfl) (fun _ => one_classes)
    (fun _ _ => by decide) _ rfl
  cases h1
  obtain ⟨e, he, _⟩ := h4 (by decide +kernel)
  exact ⟨_, s, rfl, h2, e, he⟩

example : ∃ v s, ecs2Doc texts true (fun _ => one c!"TagMaster" c!"name" c!"a < b") = .ok [(c!"ecoSpold", v)] ∧
    unparse plainEnv [(c!"ecoSpold", v)] = .ok s ∧ ∃ e, parse s = .ok e := by
  obtain ⟨v, s, h1, h2, _, h4⟩ := ecs2_file plainEnv texts true (fun _ => one c!"TagMaster" c!"name" c!"a < b")
    (texts_fit _) (fun _ => one_wf (S := ecs2) (c := c!"TagMaster") (k := c!"name") rfl rfl) (fun _ => one_classes) _ rfl
  cases h1
  obtain ⟨e, he, _⟩ := h4 (by decide +kernel)
  exact ⟨_, s, rfl, h2, e, he⟩

theorem parse_fails {s : Str} (h : ((document s).bind (resolve xmlNs)).isNone = true) : parse s = .error (.other 1) := by
  rw [parse, Option.isNone_iff_eq_none.1 h]

/-- Why the prefix has to be declared: the same attribute in a document without the declaration makes the file unreadable. -/
theorem olca_undeclared : ∃ s, unparse plainEnv [(c!"processDataSet", .dict [
      (c!"@xmlns", .str c!"http://lca.jrc.it/ILCD/Process"),
      (c!"exchanges", .dict [(c!"exchange", .dict [(c!"@olca:unitId", .str c!"u")])])])] = .ok s ∧
    parse s = .error (.other 1) := ⟨_, rfl, parse_fails (by decide +kernel)⟩

/-! ### References to characters -/

/-- The number of a row of decimal digits. -/
def decimal (s : Str) : Nat := s.foldl (fun n c => n * 10 + (c.toNat - 48)) 0

theorem number_decimal (s : Str) (h : ∀ c ∈ s, '0' ≤ c ∧ c ≤ '9') (a : Nat) :
    number 10 a s = some (s.foldl (fun n c => n * 10 + (c.toNat - 48)) a) := by
  induction s generalizing a with
  | nil => rfl
  | cons c s ih =>
    have hc := h c (by simp)
    have hd : digit c = true := by simp [digit, hc.1, hc.2]
    rw [number, if_pos hd, ih fun x hx => h x (by simp [hx])]
    rfl

/-- A reference by number gives the character with this number if XML allows it in a document, and makes the document
unreadable otherwise. -/
theorem reference_iff (s : Str) (hs : s ≠ []) (h : ∀ c ∈ s, '0' ≤ c ∧ c ≤ '9') (c : Char) :
    refChar ('#' :: s) = some c ↔ c.toNat = decimal s ∧
      (c.toNat = 9 ∨ c.toNat = 10 ∨ c.toNat = 13 ∨ 32 ≤ c.toNat ∧ c.toNat ≠ 0xfffe ∧ c.toNat ≠ 0xffff) := by
  have hr : refChar ('#' :: s) = charOf (decimal s) := by
    cases s with
    | nil => exact absurd rfl hs
    | cons a s =>
      have hx : a ≠ 'x' := by
        rintro rfl
        exact absurd (h 'x' (by simp)).2 (by decide)
      have : number 10 0 (a :: s) = some (decimal (a :: s)) := number_decimal _ h 0
      simp only [refChar, List.cons.injEq, Char.reduceEq, false_and, if_false]
      split
      · rename_i heq
        exact absurd (List.cons.inj (List.cons.inj heq).2).1 hx
      · rename_i heq
        obtain ⟨rfl, rfl⟩ := List.cons.inj (List.cons.inj heq).2
        rw [this]
        rfl
      · rename_i heq
        exact absurd rfl (heq a s)
  rw [hr]
  have hx : ∀ c : Char, xmlChar c = true ↔
      (c.toNat = 9 ∨ c.toNat = 10 ∨ c.toNat = 13 ∨ 32 ≤ c.toNat ∧ c.toNat ≠ 0xfffe ∧ c.toNat ≠ 0xffff) := by
    intro c
    have hv : c.toNat < 0xd800 ∨ 0xdfff < c.toNat ∧ c.toNat < 0x110000 := c.valid
    simp only [xmlChar, Bool.or_eq_true, Bool.and_eq_true, beq_iff_eq, decide_eq_true_eq]
    omega
  rw [← hx]
  unfold charOf
  split
  · rename_i hv
    have hn : (Char.ofNatAux (decimal s) hv).toNat = decimal s := rfl
    split
    · rename_i hc
      rw [Option.some.injEq]
      constructor
      · rintro rfl
        exact ⟨hn, hc⟩
      · rintro ⟨h1, -⟩
        exact Char.toNat_inj.1 (by rw [hn, h1])
    · rename_i hc
      simp only [reduceCtorEq, false_iff]
      rintro ⟨h1, h2⟩
      have : c = Char.ofNatAux (decimal s) hv := Char.toNat_inj.1 (by rw [hn, h1])
      exact hc (this ▸ h2)
  · rename_i hv
    simp only [reduceCtorEq, false_iff]
    rintro ⟨h1, -⟩
    exact hv (h1 ▸ c.valid)

/-- A line feed by its number, and a page break refused. -/
example : refChar c!"#10" = some '\n' ∧ ∀ c, refChar c!"#12" ≠ some c := by
  refine ⟨(reference_iff c!"10" (by decide) (by decide) '\n').2 (by decide), fun c h => ?_⟩
  obtain ⟨h1, h2⟩ := (reference_iff c!"12" (by decide) (by decide) c).1 h
  have : decimal c!"12" = 12 := rfl
  omega

/-- A reference that is not ended makes a text unreadable. -/
theorem reference_not_ended (a b : Str) (h : ';' ∉ b) : decode none (a ++ '&' :: b) = none := by
  have h1 : ∀ (l r : Str), ';' ∉ l → decode (some r) l = none := by
    intro l
    induction l with
    | nil => intro r _; rfl
    | cons c l ih =>
      intro r hl
      have hc : c ≠ ';' := fun hc => hl (by simp [hc])
      rw [decode, if_neg hc]
      exact ih _ fun h => hl (by simp [h])
  have gen : ∀ (a : Str) (st : Option Str), decode st (a ++ '&' :: b) = none := by
    intro a
    induction a with
    | nil =>
      intro st
      cases st with
      | none => rw [List.nil_append, decode, if_pos rfl]; exact h1 b [] h
      | some r => rw [List.nil_append, decode, if_neg (by decide)]; exact h1 b _ h
    | cons c a ih =>
      intro st
      cases st with
      | none =>
        rw [List.cons_append, decode]
        split
        · exact ih _
        · rw [ih]; rfl
      | some r =>
        rw [List.cons_append, decode]
        split
        · split
          · rfl
          · rw [ih]; rfl
        · exact ih _
  exact gen a none

example : decode none c!"fish & chips" = none := reference_not_ended c!"fish " c!" chips" (by decide)

theorem takeName_suffix {s n r : Str} (h : takeName s = some (n, r)) : s = n ++ r := by
  rw [takeName] at h
  split at h
  · cases h
  · rename_i c n' hn
    split at h
    · simp only [Option.some.injEq, Prod.mk.injEq] at h
      obtain ⟨rfl, rfl⟩ := h
      rw [← hn, List.takeWhile_append_dropWhile]
    · cases h

theorem endTag_shape {n s r : Str} (h : endTag n s = some r) :
    ∃ w, (∀ c ∈ w, xmlSpace c = true) ∧ s = c!"</" ++ n ++ w ++ '>' :: r := by
  unfold endTag at h
  split at h
  · rename_i s
    split at h
    · cases h
    · rename_i k r1 hk
      split at h
      · rename_i hkn
        subst hkn
        split at h
        · cases h
        · rename_i c r2 hd
          split at h
          · rename_i hc
            subst hc
            cases h
            refine ⟨r1.takeWhile xmlSpace, fun c hc => List.all_eq_true.1 (List.all_takeWhile (p := xmlSpace) (l := r1)) c hc, ?_⟩
            rw [takeName_suffix hk, ← hd]
            simp
          · cases h
      · cases h
  · cases h

theorem attrValue_suffix {s v r : Str} (h : attrValue s = some (v, r)) : r <:+ s := by
  unfold attrValue at h
  split at h
  · cases h
  · rename_i q s
    split at h
    · split at h
      · cases h
      · split at h
        · cases h
        · rename_i c r' hd
          obtain ⟨x, -, hx⟩ := Option.map_eq_some_iff.1 h
          simp only [Prod.mk.injEq] at hx
          obtain ⟨-, rfl⟩ := hx
          exact ((List.suffix_cons c r').trans (hd ▸ List.dropWhile_suffix _)).trans (List.suffix_cons q s)
    · cases h

theorem attributes_suffix (n : Nat) {s r : Str} {l : List (Str × Str)} (h : attributes n s = some (l, r)) : r <:+ s := by
  induction n generalizing s r l with
  | zero => cases h
  | succ n ih =>
    unfold attributes at h
    split at h
    · cases h
    · rename_i c r0 hd
      have hs : c :: r0 <:+ s := hd ▸ List.dropWhile_suffix _
      split at h
      · cases h
        exact hs
      · split at h
        · cases h
        · split at h
          · cases h
          · rename_i k r1 hk
            have h1 : r1 <:+ c :: r0 := ⟨k, (takeName_suffix hk).symm⟩
            split at h
            · cases h
            · rename_i e r2 hd2
              have h2 : r2 <:+ r1 := (List.suffix_cons e r2).trans (hd2 ▸ List.dropWhile_suffix _)
              split at h
              · split at h
                · cases h
                · rename_i v r3 hv
                  have h3 : r3 <:+ r2 := (attrValue_suffix hv).trans (List.dropWhile_suffix _)
                  split at h
                  · cases h
                  · rename_i l' r4 ha
                    split at h
                    · cases h
                    · cases h
                      exact (((ih ha).trans h3).trans h2).trans (h1.trans hs)
              · cases h

theorem chars_suffix {s t r : Str} (h : chars s = some (t, r)) : r <:+ s := by
  unfold chars at h
  split at h
  · cases h
  · obtain ⟨x, -, hx⟩ := Option.map_eq_some_iff.1 h
    simp only [Prod.mk.injEq] at hx
    exact hx.2 ▸ List.dropWhile_suffix _

/-- How an element ends: with a tag of its own name, or at once. -/
def Ends (e : Elem) (s r : Str) : Prop :=
  ∃ x w, (∀ c ∈ w, xmlSpace c = true) ∧ (s = x ++ c!"/>" ++ r ∨ s = x ++ c!"</" ++ e.tag ++ w ++ '>' :: r)

theorem Ends.suffix {e : Elem} {s r : Str} (h : Ends e s r) : r <:+ s := by
  obtain ⟨x, w, -, rfl | rfl⟩ := h
  · exact List.suffix_append _ _
  · exact (List.suffix_cons _ _).trans (List.suffix_append _ _)

theorem Ends.longer {e : Elem} {s s' r : Str} (h : Ends e s r) (hs : s <:+ s') : Ends e s' r := by
  obtain ⟨y, rfl⟩ := hs
  obtain ⟨x, w, hw, rfl | rfl⟩ := h
  · exact ⟨y ++ x, w, hw, .inl (by simp)⟩
  · exact ⟨y ++ x, w, hw, .inr (by simp)⟩

theorem element_content_end (n : Nat) :
    (∀ s e r, element n s = some (e, r) → Ends e s r) ∧ (∀ s t ks r, content n s = some (t, ks, r) → r <:+ s) := by
  induction n with
  | zero => exact ⟨fun _ _ _ h => (by cases h), fun _ _ _ _ h => (by cases h)⟩
  | succ n ih =>
    constructor
    · intro s e r h
      unfold element at h
      split at h
      · rename_i s
        split at h
        · cases h
        · rename_i name r1 hn
          have h1 : r1 <:+ '<' :: s := List.IsSuffix.trans ⟨name, (takeName_suffix hn).symm⟩ (List.suffix_cons _ s)
          split at h
          · cases h
          · rename_i as r2 ha
            cases h
            obtain ⟨y, hy⟩ := (attributes_suffix _ ha).trans h1
            exact ⟨y, [], by simp, .inl (by simp [← hy])⟩
          · rename_i as r2 ha
            have h2 : r2 <:+ '<' :: s := (List.suffix_cons _ _).trans ((attributes_suffix _ ha).trans h1)
            split at h
            · cases h
            · rename_i t ks r3 hc
              obtain ⟨r4, h4, hx⟩ := Option.map_eq_some_iff.1 h
              cases hx
              obtain ⟨w, hw, h5⟩ := endTag_shape h4
              obtain ⟨y, hy⟩ := (ih.2 _ _ _ _ hc).trans h2
              exact ⟨y, w, hw, .inr (by rw [← hy, h5]; simp [Elem.tag])⟩
          · cases h
      · cases h
    · intro s t ks r h
      unfold content at h
      split at h
      · cases h
      · rename_i t r0 hc
        have h0 := chars_suffix hc
        split at h
        · cases h
          exact h0
        · split at h
          · cases h
          · rename_i e r1 he
            split at h
            · cases h
            · rename_i tail ks' r2 hk
              cases h
              exact ((ih.2 _ _ _ _ hk).trans (ih.1 _ _ _ he).suffix).trans h0

/-- A document that can be read ends with the tag of its own element, or with `/>`, and white space. -/
theorem document_ends (s : Str) (e : Elem) (h : document s = some e) :
    ∃ x w z, (∀ c ∈ w, xmlSpace c = true) ∧ (∀ c ∈ z, xmlSpace c = true) ∧
      (normNl s = x ++ c!"/>" ++ z ∨ normNl s = x ++ c!"</" ++ e.tag ++ w ++ '>' :: z) := by
  unfold document at h
  simp only at h
  split at h
  · split at h
    · rename_i e' rest he
      split at h
      · rename_i hz
        cases h
        obtain ⟨x, w, hw, hx⟩ := ((element_content_end _).1 _ _ _ he).longer
          (show _ <:+ normNl s from (List.dropWhile_suffix _).trans (by split; exact List.drop_suffix _ _; exact List.suffix_refl _))
        exact ⟨x, w, rest, hw, fun c hc => List.all_eq_true.1 hz c hc, hx⟩
      · cases h
    · cases h
  · cases h

/-- The end tag of the same name, and of another. -/
example : (∃ e, document c!"<a></a >" = some e) ∧ document c!"<a></b>" = none := ⟨⟨_, rfl⟩, by decide⟩

end Verif.XmlWrite
